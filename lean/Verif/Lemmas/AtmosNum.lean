import Verif.Lemmas.AtmosPow
/-! # The pressure at the top of each layer (generated by tools/gen_atmos.py) -/

set_option exponentiation.threshold 100000

namespace Post
open Spec

theorem top_pressure_0 :
    0.999999 * (layer 36089.239 0.47268050e3 389.97 0.0).pres ≤
        (layer 0.0 0.21162166e4 518.67 (-0.35661600e-2)).pressure (layer 36089.239 0.47268050e3 389.97 0.0).alt ∧
      (layer 0.0 0.21162166e4 518.67 (-0.35661600e-2)).pressure (layer 36089.239 0.47268050e3 389.97 0.0).alt ≤
        1.000001 * (layer 36089.239 0.47268050e3 389.97 0.0).pres := by
  refine pressure_bounds_neg (zl := (187966336711 / 250000000000)) (zh := (150373069369 / 200000000000)) (U := (27920167333 / 125000000000)) (W := (223360891943 / 1000000000000))
    (a := 2013) (b := 383) (a' := 3800) (b' := 723) ?_ ?_ ?_ ?_ ?_ ?_ ?_ ?_ ?_ ?_ ?_ ?_ ?_
  all_goals first
    | (norm_num; done)
    | (simp only [layer, gravityPerGas, airGasConstant, Layer.temperature]; norm_num; done)

theorem top_pressure_1 :
    0.999999 * (layer 65616.797 0.11434543e3 389.97 0.54863995e-3).pres ≤
        (layer 36089.239 0.47268050e3 389.97 0.0).pressure (layer 65616.797 0.11434543e3 389.97 0.54863995e-3).alt ∧
      (layer 36089.239 0.47268050e3 389.97 0.0).pressure (layer 65616.797 0.11434543e3 389.97 0.54863995e-3).alt ≤
        1.000001 * (layer 65616.797 0.11434543e3 389.97 0.54863995e-3).pres := by
  refine pressure_bounds_exp (zl := (3678794411 / 10000000000)) (zh := (3678794413 / 10000000000)) (U := (48381748071 / 200000000000)) (W := (241908256539 / 1000000000000))
    (a := 2011) (b := 1417) (a' := 1730) (b' := 1219) ?_ ?_ ?_ ?_ ?_ ?_ ?_ ?_ ?_ ?_ ?_ ?_ ?_
  all_goals first
    | (norm_num; done)
    | (simp only [layer, gravityPerGas, airGasConstant, Layer.temperature]; norm_num; done)

theorem top_pressure_2 :
    0.999999 * (layer 104986.87 0.18128948e2 411.57 0.15361920e-2).pres ≤
        (layer 65616.797 0.11434543e3 389.97 0.54863995e-3).pressure (layer 104986.87 0.18128948e2 411.57 0.15361920e-2).alt ∧
      (layer 65616.797 0.11434543e3 389.97 0.54863995e-3).pressure (layer 104986.87 0.18128948e2 411.57 0.15361920e-2).alt ≤
        1.000001 * (layer 104986.87 0.18128948e2 411.57 0.15361920e-2).pres := by
  refine pressure_bounds_pos (zl := (189503610491 / 200000000000)) (zh := (118439756557 / 125000000000)) (U := (39636402891 / 250000000000)) (W := (79272647237 / 500000000000))
    (a := 9839) (b := 288) (a' := 11513) (b' := 337) ?_ ?_ ?_ ?_ ?_ ?_ ?_ ?_ ?_ ?_ ?_ ?_ ?_
  all_goals first
    | (norm_num; done)
    | (simp only [layer, gravityPerGas, airGasConstant, Layer.temperature]; norm_num; done)

theorem top_pressure_3 :
    0.999999 * (layer 154199.48 0.23163263e1 487.17 0.0).pres ≤
        (layer 104986.87 0.18128948e2 411.57 0.15361920e-2).pressure (layer 154199.48 0.23163263e1 487.17 0.0).alt ∧
      (layer 104986.87 0.18128948e2 411.57 0.15361920e-2).pressure (layer 154199.48 0.23163263e1 487.17 0.0).alt ≤
        1.000001 * (layer 154199.48 0.23163263e1 487.17 0.0).pres := by
  refine pressure_bounds_pos (zl := (105602249979 / 125000000000)) (zh := (844817999833 / 1000000000000)) (U := (31942402509 / 250000000000)) (W := (63884677249 / 500000000000))
    (a := 6430) (b := 527) (a' := 8553) (b' := 701) ?_ ?_ ?_ ?_ ?_ ?_ ?_ ?_ ?_ ?_ ?_ ?_ ?_
  all_goals first
    | (norm_num; done)
    | (simp only [layer, gravityPerGas, airGasConstant, Layer.temperature]; norm_num; done)

theorem top_pressure_4 :
    0.999999 * (layer 170603.68 0.12322603e1 487.17 (-0.10972801e-2)).pres ≤
        (layer 154199.48 0.23163263e1 487.17 0.0).pressure (layer 170603.68 0.12322603e1 487.17 (-0.10972801e-2)).alt ∧
      (layer 154199.48 0.23163263e1 487.17 0.0).pressure (layer 170603.68 0.12322603e1 487.17 (-0.10972801e-2)).alt ≤
        1.000001 * (layer 170603.68 0.12322603e1 487.17 (-0.10972801e-2)).pres := by
  refine pressure_bounds_exp (zl := (3678794411 / 10000000000)) (zh := (3678794413 / 10000000000)) (U := (531989613147 / 1000000000000)) (W := (53198854917 / 100000000000))
    (a := 669) (b := 1060) (a' := 1042) (b' := 1651) ?_ ?_ ?_ ?_ ?_ ?_ ?_ ?_ ?_ ?_ ?_ ?_ ?_
  all_goals first
    | (norm_num; done)
    | (simp only [layer, gravityPerGas, airGasConstant, Layer.temperature]; norm_num; done)

theorem top_pressure_5 :
    0.999999 * (layer 200131.23 0.38032532e0 454.77 (-0.21945600e-2)).pres ≤
        (layer 170603.68 0.12322603e1 487.17 (-0.10972801e-2)).pressure (layer 200131.23 0.38032532e0 454.77 (-0.21945600e-2)).alt ∧
      (layer 170603.68 0.12322603e1 487.17 (-0.10972801e-2)).pressure (layer 200131.23 0.38032532e0 454.77 (-0.21945600e-2)).alt ≤
        1.000001 * (layer 200131.23 0.38032532e0 454.77 (-0.21945600e-2)).pres := by
  refine pressure_bounds_neg (zl := (58343341003 / 62500000000)) (zh := (933493456049 / 1000000000000)) (U := (19290044701 / 62500000000)) (W := (308640097937 / 1000000000000))
    (a := 8165) (b := 478) (a' := 9839) (b' := 576) ?_ ?_ ?_ ?_ ?_ ?_ ?_ ?_ ?_ ?_ ?_ ?_ ?_
  all_goals first
    | (norm_num; done)
    | (simp only [layer, gravityPerGas, airGasConstant, Layer.temperature]; norm_num; done)

theorem top_pressure_6 :
    0.999999 * (layer 259186.35 0.21673064e-1 325.17 0.0).pres ≤
        (layer 200131.23 0.38032532e0 454.77 (-0.21945600e-2)).pressure (layer 259186.35 0.21673064e-1 325.17 0.0).alt ∧
      (layer 200131.23 0.38032532e0 454.77 (-0.21945600e-2)).pressure (layer 259186.35 0.21673064e-1 325.17 0.0).alt ≤
        1.000001 * (layer 259186.35 0.21673064e-1 325.17 0.0).pres := by
  refine pressure_bounds_neg (zl := (143004154123 / 200000000000)) (zh := (89377596327 / 125000000000)) (U := (28492825133 / 500000000000)) (W := (7123192037 / 125000000000))
    (a := 4501) (b := 527) (a' := 5338) (b' := 625) ?_ ?_ ?_ ?_ ?_ ?_ ?_ ?_ ?_ ?_ ?_ ?_ ?_
  all_goals first
    | (norm_num; done)
    | (simp only [layer, gravityPerGas, airGasConstant, Layer.temperature]; norm_num; done)

theorem top_pressure_7 :
    0.999999 * (layer 291151.57 0.34333824e-2 325.17 0.16953850e-2).pres ≤
        (layer 259186.35 0.21673064e-1 325.17 0.0).pressure (layer 291151.57 0.34333824e-2 325.17 0.16953850e-2).alt ∧
      (layer 259186.35 0.21673064e-1 325.17 0.0).pressure (layer 291151.57 0.34333824e-2 325.17 0.16953850e-2).alt ≤
        1.000001 * (layer 291151.57 0.34333824e-2 325.17 0.16953850e-2).pres := by
  refine pressure_bounds_exp (zl := (3678794411 / 10000000000)) (zh := (3678794413 / 10000000000)) (U := (79208593519 / 500000000000)) (W := (31683374041 / 200000000000))
    (a := 3475) (b := 1886) (a' := 2773) (b' := 1505) ?_ ?_ ?_ ?_ ?_ ?_ ?_ ?_ ?_ ?_ ?_ ?_ ?_
  all_goals first
    | (norm_num; done)
    | (simp only [layer, gravityPerGas, airGasConstant, Layer.temperature]; norm_num; done)

theorem top_pressure_8 :
    0.999999 * (layer 323002.74 0.62814785e-3 379.17 0.28345707e-2).pres ≤
        (layer 291151.57 0.34333824e-2 325.17 0.16953850e-2).pressure (layer 323002.74 0.62814785e-3 379.17 0.28345707e-2).alt ∧
      (layer 291151.57 0.34333824e-2 325.17 0.16953850e-2).pressure (layer 323002.74 0.62814785e-3 379.17 0.28345707e-2).alt ≤
        1.000001 * (layer 323002.74 0.62814785e-3 379.17 0.28345707e-2).pres := by
  refine pressure_bounds_pos (zl := (857583678979 / 1000000000000)) (zh := (42879183949 / 50000000000)) (U := (45738313197 / 250000000000)) (W := (182952886883 / 1000000000000))
    (a := 7772) (b := 703) (a' := 8170) (b' := 739) ?_ ?_ ?_ ?_ ?_ ?_ ?_ ?_ ?_ ?_ ?_ ?_ ?_
  all_goals first
    | (norm_num; done)
    | (simp only [layer, gravityPerGas, airGasConstant, Layer.temperature]; norm_num; done)

theorem top_pressure_9 :
    0.999999 * (layer 354753.59 0.15361733e-3 469.17 0.56867005e-2).pres ≤
        (layer 323002.74 0.62814785e-3 379.17 0.28345707e-2).pressure (layer 354753.59 0.15361733e-3 469.17 0.56867005e-2).alt ∧
      (layer 323002.74 0.62814785e-3 379.17 0.28345707e-2).pressure (layer 354753.59 0.15361733e-3 469.17 0.56867005e-2).alt ≤
        1.000001 * (layer 354753.59 0.15361733e-3 469.17 0.56867005e-2).pres := by
  refine pressure_bounds_pos (zl := (808171827853 / 1000000000000)) (zh := (404085913927 / 500000000000)) (U := (244556251553 / 1000000000000)) (W := (122277881221 / 500000000000))
    (a := 3736) (b := 565) (a' := 5442) (b' := 823) ?_ ?_ ?_ ?_ ?_ ?_ ?_ ?_ ?_ ?_ ?_ ?_ ?_
  all_goals first
    | (norm_num; done)
    | (simp only [layer, gravityPerGas, airGasConstant, Layer.temperature]; norm_num; done)

theorem top_pressure_10 :
    0.7582 * (layer 396406.39 0.52676024e-4 649.17 0.11443751e-1).pres ≤
        (layer 354753.59 0.15361733e-3 469.17 0.56867005e-2).pressure (layer 396406.39 0.52676024e-4 649.17 0.11443751e-1).alt ∧
      (layer 354753.59 0.15361733e-3 469.17 0.56867005e-2).pressure (layer 396406.39 0.52676024e-4 649.17 0.11443751e-1).alt ≤
        0.7583 * (layer 396406.39 0.52676024e-4 649.17 0.11443751e-1).pres := by
  refine pressure_bounds_pos (zl := (166127979461 / 250000000000)) (zh := (132902383569 / 200000000000)) (U := (260024236843 / 1000000000000)) (W := (129994973213 / 500000000000))
    (a := 234) (b := 71) (a' := 412) (b' := 125) ?_ ?_ ?_ ?_ ?_ ?_ ?_ ?_ ?_ ?_ ?_ ?_ ?_
  all_goals first
    | (norm_num; done)
    | (simp only [layer, gravityPerGas, airGasConstant, Layer.temperature]; norm_num; done)

theorem top_pressure_11 :
    1.12 * (layer 480781.04 0.10566108e-4 1729.17 0.86358208e-2).pres ≤
        (layer 396406.39 0.52676024e-4 649.17 0.11443751e-1).pressure (layer 480781.04 0.10566108e-4 1729.17 0.86358208e-2).alt ∧
      (layer 396406.39 0.52676024e-4 649.17 0.11443751e-1).pressure (layer 480781.04 0.10566108e-4 1729.17 0.86358208e-2).alt ≤
        1.121 * (layer 480781.04 0.10566108e-4 1729.17 0.86358208e-2).pres := by
  refine pressure_bounds_pos (zl := (402029441969 / 1000000000000)) (zh := (40202944197 / 100000000000)) (U := (112428825949 / 500000000000)) (W := (112328532617 / 500000000000))
    (a := 208) (b := 127) (a' := 77) (b' := 47) ?_ ?_ ?_ ?_ ?_ ?_ ?_ ?_ ?_ ?_ ?_ ?_ ?_
  all_goals first
    | (norm_num; done)
    | (simp only [layer, gravityPerGas, airGasConstant, Layer.temperature]; norm_num; done)

theorem top_pressure_12 :
    0.998 * (layer 512046.16 0.77263469e-5 1999.17 0.57749093e-2).pres ≤
        (layer 480781.04 0.10566108e-4 1729.17 0.86358208e-2).pressure (layer 512046.16 0.77263469e-5 1999.17 0.57749093e-2).alt ∧
      (layer 480781.04 0.10566108e-4 1729.17 0.86358208e-2).pressure (layer 512046.16 0.77263469e-5 1999.17 0.57749093e-2).alt ≤
        0.9982 * (layer 512046.16 0.77263469e-5 1999.17 0.57749093e-2).pres := by
  refine pressure_bounds_pos (zl := (864943963157 / 1000000000000)) (zh := (432471981579 / 500000000000)) (U := (29196898141 / 40000000000)) (W := (72977620579 / 100000000000))
    (a := 102) (b := 47) (a' := 89) (b' := 41) ?_ ?_ ?_ ?_ ?_ ?_ ?_ ?_ ?_ ?_ ?_ ?_ ?_
  all_goals first
    | (norm_num; done)
    | (simp only [layer, gravityPerGas, airGasConstant, Layer.temperature]; norm_num; done)

theorem top_pressure_13 :
    0.999999 * (layer 543215.48 0.58405376e-5 2179.17 0.40610461e-2).pres ≤
        (layer 512046.16 0.77263469e-5 1999.17 0.57749093e-2).pressure (layer 543215.48 0.58405376e-5 2179.17 0.40610461e-2).alt ∧
      (layer 512046.16 0.77263469e-5 1999.17 0.57749093e-2).pressure (layer 543215.48 0.58405376e-5 2179.17 0.40610461e-2).alt ≤
        1.000001 * (layer 543215.48 0.58405376e-5 2179.17 0.40610461e-2).pres := by
  refine pressure_bounds_pos (zl := (917399745647 / 1000000000000)) (zh := (57337484103 / 62500000000)) (U := (755925603151 / 1000000000000)) (W := (377962045651 / 500000000000))
    (a := 2048) (b := 631) (a' := 1493) (b' := 460) ?_ ?_ ?_ ?_ ?_ ?_ ?_ ?_ ?_ ?_ ?_ ?_ ?_
  all_goals first
    | (norm_num; done)
    | (simp only [layer, gravityPerGas, airGasConstant, Layer.temperature]; norm_num; done)

theorem top_pressure_14 :
    0.999999 * (layer 605268.45 0.35246030e-5 2431.17 0.29274135e-2).pres ≤
        (layer 543215.48 0.58405376e-5 2179.17 0.40610461e-2).pressure (layer 605268.45 0.35246030e-5 2431.17 0.29274135e-2).alt ∧
      (layer 543215.48 0.58405376e-5 2179.17 0.40610461e-2).pressure (layer 605268.45 0.35246030e-5 2431.17 0.29274135e-2).alt ≤
        1.000001 * (layer 605268.45 0.35246030e-5 2431.17 0.29274135e-2).pres := by
  refine pressure_bounds_pos (zl := (112043276759 / 125000000000)) (zh := (896346214073 / 1000000000000)) (U := (603472961907 / 1000000000000)) (W := (603471754963 / 1000000000000))
    (a := 60) (b := 13) (a' := 34477) (b' := 7470) ?_ ?_ ?_ ?_ ?_ ?_ ?_ ?_ ?_ ?_ ?_ ?_ ?_
  all_goals first
    | (norm_num; done)
    | (simp only [layer, gravityPerGas, airGasConstant, Layer.temperature]; norm_num; done)

theorem top_pressure_15 :
    0.999999 * (layer 728243.91 0.14559124e-5 2791.17 0.23812804e-2).pres ≤
        (layer 605268.45 0.35246030e-5 2431.17 0.29274135e-2).pressure (layer 728243.91 0.14559124e-5 2791.17 0.23812804e-2).alt ∧
      (layer 605268.45 0.35246030e-5 2431.17 0.29274135e-2).pressure (layer 728243.91 0.14559124e-5 2791.17 0.23812804e-2).alt ≤
        1.000001 * (layer 728243.91 0.14559124e-5 2791.17 0.23812804e-2).pres := by
  refine pressure_bounds_pos (zl := (21775545569 / 25000000000)) (zh := (871021822761 / 1000000000000)) (U := (103267932297 / 250000000000)) (W := (206535451523 / 500000000000))
    (a := 5263) (b := 822) (a' := 954) (b' := 149) ?_ ?_ ?_ ?_ ?_ ?_ ?_ ?_ ?_ ?_ ?_ ?_ ?_
  all_goals first
    | (norm_num; done)
    | (simp only [layer, gravityPerGas, airGasConstant, Layer.temperature]; norm_num; done)

theorem top_pressure_16 :
    0.999999 * (layer 939894.74 0.39418091e-6 3295.17 0.20152600e-2).pres ≤
        (layer 728243.91 0.14559124e-5 2791.17 0.23812804e-2).pressure (layer 939894.74 0.39418091e-6 3295.17 0.20152600e-2).alt ∧
      (layer 728243.91 0.14559124e-5 2791.17 0.23812804e-2).pressure (layer 939894.74 0.39418091e-6 3295.17 0.20152600e-2).alt ≤
        1.000001 * (layer 939894.74 0.39418091e-6 3295.17 0.20152600e-2).pres := by
  refine pressure_bounds_pos (zl := (423524434667 / 500000000000)) (zh := (169409773867 / 200000000000)) (U := (270745207047 / 1000000000000)) (W := (135372332779 / 500000000000))
    (a := 5801) (b := 737) (a' := 3786) (b' := 481) ?_ ?_ ?_ ?_ ?_ ?_ ?_ ?_ ?_ ?_ ?_ ?_ ?_
  all_goals first
    | (norm_num; done)
    | (simp only [layer, gravityPerGas, airGasConstant, Layer.temperature]; norm_num; done)

theorem top_pressure_17 :
    0.999999 * (layer 1234645.7 0.84380249e-7 3889.17 0.16354849e-2).pres ≤
        (layer 939894.74 0.39418091e-6 3295.17 0.20152600e-2).pressure (layer 1234645.7 0.84380249e-7 3889.17 0.16354849e-2).alt ∧
      (layer 939894.74 0.39418091e-6 3295.17 0.20152600e-2).pressure (layer 1234645.7 0.84380249e-7 3889.17 0.16354849e-2).alt ≤
        1.000001 * (layer 1234645.7 0.84380249e-7 3889.17 0.16354849e-2).pres := by
  refine pressure_bounds_pos (zl := (33890728899 / 40000000000)) (zh := (211817055619 / 250000000000)) (U := (214064992087 / 1000000000000)) (W := (214064563959 / 1000000000000))
    (a := 6836) (b := 735) (a' := 4083) (b' := 439) ?_ ?_ ?_ ?_ ?_ ?_ ?_ ?_ ?_ ?_ ?_ ?_ ?_
  all_goals first
    | (norm_num; done)
    | (simp only [layer, gravityPerGas, airGasConstant, Layer.temperature]; norm_num; done)

theorem top_pressure_18 :
    0.999999 * (layer 1520799.4 0.22945543e-7 4357.17 0.11010085e-2).pres ≤
        (layer 1234645.7 0.84380249e-7 3889.17 0.16354849e-2).pressure (layer 1520799.4 0.22945543e-7 4357.17 0.11010085e-2).alt ∧
      (layer 1234645.7 0.84380249e-7 3889.17 0.16354849e-2).pressure (layer 1520799.4 0.22945543e-7 4357.17 0.11010085e-2).alt ≤
        1.000001 * (layer 1520799.4 0.22945543e-7 4357.17 0.11010085e-2).pres := by
  refine pressure_bounds_pos (zl := (178518164337 / 200000000000)) (zh := (446295410843 / 500000000000)) (U := (16995658209 / 62500000000)) (W := (67982496871 / 250000000000))
    (a := 5352) (b := 467) (a' := 2315) (b' := 202) ?_ ?_ ?_ ?_ ?_ ?_ ?_ ?_ ?_ ?_ ?_ ?_ ?_
  all_goals first
    | (norm_num; done)
    | (simp only [layer, gravityPerGas, airGasConstant, Layer.temperature]; norm_num; done)

theorem top_pressure_19 :
    0.999999 * (layer 1798726.4 0.72259271e-8 4663.17 0.73319725e-3).pres ≤
        (layer 1520799.4 0.22945543e-7 4357.17 0.11010085e-2).pressure (layer 1798726.4 0.72259271e-8 4663.17 0.73319725e-3).alt ∧
      (layer 1520799.4 0.22945543e-7 4357.17 0.11010085e-2).pressure (layer 1798726.4 0.72259271e-8 4663.17 0.73319725e-3).alt ≤
        1.000001 * (layer 1798726.4 0.72259271e-8 4663.17 0.73319725e-3).pres := by
  refine pressure_bounds_pos (zl := (46718970249 / 50000000000)) (zh := (934379404981 / 1000000000000)) (U := (314916684513 / 1000000000000)) (W := (314916054681 / 1000000000000))
    (a := 6452) (b := 379) (a' := 7167) (b' := 421) ?_ ?_ ?_ ?_ ?_ ?_ ?_ ?_ ?_ ?_ ?_ ?_ ?_
  all_goals first
    | (norm_num; done)
    | (simp only [layer, gravityPerGas, airGasConstant, Layer.temperature]; norm_num; done)

theorem top_pressure_20 :
    0.999999 * (layer 2068776.5 0.24958752e-8 4861.17 0.0).pres ≤
        (layer 1798726.4 0.72259271e-8 4663.17 0.73319725e-3).pressure (layer 2068776.5 0.24958752e-8 4861.17 0.0).alt ∧
      (layer 1798726.4 0.72259271e-8 4663.17 0.73319725e-3).pressure (layer 2068776.5 0.24958752e-8 4861.17 0.0).alt ≤
        1.000001 * (layer 2068776.5 0.24958752e-8 4861.17 0.0).pres := by
  refine pressure_bounds_pos (zl := (959269066693 / 1000000000000)) (zh := (479634533347 / 500000000000)) (U := (86351469553 / 250000000000)) (W := (172702593701 / 500000000000))
    (a := 10021) (b := 392) (a' := 6212) (b' := 243) ?_ ?_ ?_ ?_ ?_ ?_ ?_ ?_ ?_ ?_ ?_ ?_ ?_
  all_goals first
    | (norm_num; done)
    | (simp only [layer, gravityPerGas, airGasConstant, Layer.temperature]; norm_num; done)

end Post
