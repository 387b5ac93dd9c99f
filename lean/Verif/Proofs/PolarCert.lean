import Verif.Proofs.PolarBound
import Mathlib.Analysis.Real.Pi.Bounds
import Mathlib.Tactic.IntervalCases

/-! # Bounds for the modes on the grids of at most 64 cells: the check -/

namespace Pot
open Real Finset Spec

/-- `cos (j π / 64)` in units of `2 ^ (-96)`, rounded -/
def cosTab : List ℤ := [
  79228162514264337593543950336, 79132728722732187244728061659, 78846657256498550044590935806, 78370637286782483919278620053,
  77705815587385459894767493986, 76853793772012828831282742965, 75816624435846120440837463167, 74596806210661464877911145907,
  73197277745406789746128126514, 71621410626739109292514814291, 69873001256576951547364681783, 67956261706235611055113483826,
  65875809569178416455535880375, 63636656836829623905678209499, 61244197824248077445987182042, 58704196174749746048893530639,
  56022770974786139918731938227, 53206382012529080131142867585, 50261814215675182097372375022, 47196161305960744940144085062,
  44016808709764752108002004973, 40731415765969837454035228440, 37347897273944038119024391410, 33874404426095862382230658234,
  30319305170937817432302117203, 26691164053965497012392544925, 22998721584917316947805590458, 19250873181120977067884181267,
  15456647737653972240398692356, 11625185875944512879604179560, 7765717923213880508008574353, 3887541675809670510355249493,
  0, -3887541675809670510355249493, -7765717923213880508008574353, -11625185875944512879604179560,
  -15456647737653972240398692356, -19250873181120977067884181267, -22998721584917316947805590458, -26691164053965497012392544925,
  -30319305170937817432302117203, -33874404426095862382230658234, -37347897273944038119024391410, -40731415765969837454035228440,
  -44016808709764752108002004973, -47196161305960744940144085062, -50261814215675182097372375022, -53206382012529080131142867585,
  -56022770974786139918731938227, -58704196174749746048893530639, -61244197824248077445987182042, -63636656836829623905678209499,
  -65875809569178416455535880375, -67956261706235611055113483826, -69873001256576951547364681783, -71621410626739109292514814291,
  -73197277745406789746128126514, -74596806210661464877911145907, -75816624435846120440837463167, -76853793772012828831282742965,
  -77705815587385459894767493986, -78370637286782483919278620053, -78846657256498550044590935806, -79132728722732187244728061659,
  -79228162514264337593543950336]

/-- an integer as an enclosure -/
def Fp.ofInt (z : ℤ) (r : ℕ) : Fp := ⟨z.toNat, (-z).toNat, r⟩

theorem Fp.ofInt_mid (z : ℤ) (r : ℕ) : (Fp.ofInt z r).mid = z := by
  unfold Fp.ofInt Fp.mid
  exact_mod_cast Int.toNat_sub_toNat_neg z

theorem Fp.ofInt_has {z : ℤ} {r : ℕ} {x : ℝ} : (Fp.ofInt z r).Has x ↔ |x * (fpS : ℝ) - z| ≤ r := by
  unfold Fp.Has
  rw [Fp.ofInt_mid]
  rfl

/-- error bound of `cos (j π / 2 ^ n)` in the table -/
def cosRad (n j : ℕ) : ℕ := if j = 0 ∨ j = 2 ^ n ∨ 2 * j = 2 ^ n then 0 else 8 ^ n

/-- the entries of the level `n + 1` follow from the level `n` by halving the angle -/
def cosStep (n j : ℕ) : Bool :=
  (fun (T T' r r' S : ℤ) => decide (0 ≤ T' + r') && decide (S * S + S * (T + r) ≤ 2 * ((T' + r') * (T' + r'))) &&
    (decide (T' - r' ≤ 0) || decide (2 * ((T' - r') * (T' - r')) ≤ S * S + S * (T - r))))
  (cosTab.getD (j * 2 ^ (6 - n)) 0) (cosTab.getD (j * 2 ^ (5 - n)) 0) (cosRad n j) (cosRad (n + 1) j) fpS

theorem cosTab_anti : ∀ i < 65, cosTab.getD (64 - i) 0 = -cosTab.getD i 0 := by decide +kernel
theorem cosTab_step : ∀ n < 6, ∀ j < 2 ^ n + 1, cosStep n j = true := by decide +kernel

theorem cosTab_has {n : ℕ} (hn : n ≤ 6) : ∀ j ≤ 2 ^ n, (Fp.ofInt (cosTab.getD (j * 2 ^ (6 - n)) 0) (cosRad n j)).Has (cos (π * j / 2 ^ n)) := by
  induction n with
  | zero =>
    intro j hj
    interval_cases j
    · have : cosTab.getD (0 * 2 ^ (6 - 0)) 0 = fpS := by decide +kernel
      rw [Fp.ofInt_has, this]
      simp [cosRad]
    · have : cosTab.getD (1 * 2 ^ (6 - 0)) 0 = -fpS := by decide +kernel
      rw [Fp.ofInt_has, this]
      simp [cosRad]
  | succ n ih =>
    have hS := fpS_pos
    have low : ∀ j ≤ 2 ^ n, (Fp.ofInt (cosTab.getD (j * 2 ^ (6 - (n + 1))) 0) (cosRad (n + 1) j)).Has (cos (π * j / 2 ^ (n + 1))) := by
      intro j hj
      have hc := cosTab_step n (by omega) j (by omega)
      have hp := ih (by omega) j hj
      simp only [cosStep, Bool.and_eq_true, Bool.or_eq_true, decide_eq_true_eq] at hc
      rw [Fp.ofInt_has] at hp ⊢
      rw [show 6 - (n + 1) = 5 - n by omega]
      obtain ⟨⟨h1, h2⟩, h3⟩ := hc
      have e : cos (π * j / 2 ^ n) = 2 * cos (π * j / 2 ^ (n + 1)) ^ 2 - 1 := by
        rw [← cos_two_mul]
        congr 1
        rw [pow_succ]
        field_simp
      have c0 : 0 ≤ cos (π * j / 2 ^ (n + 1)) := by
        have hp := pi_pos
        have hj' : (j : ℝ) ≤ 2 ^ n := by exact_mod_cast hj
        apply cos_nonneg_of_neg_pi_div_two_le_of_le
        · have : 0 ≤ π * j / 2 ^ (n + 1) := by positivity
          linarith
        · rw [pow_succ, div_le_div_iff₀ (by positivity) (by positivity)]
          nlinarith
      rw [e] at hp
      generalize cos (π * j / 2 ^ (n + 1)) = x at *
      generalize cosTab.getD (j * 2 ^ (6 - n)) 0 = T at *
      generalize cosTab.getD (j * 2 ^ (5 - n)) 0 = T' at *
      have h1' : (0 : ℝ) ≤ T' + (cosRad (n + 1) j : ℕ) := by exact_mod_cast h1
      have h2' : (fpS : ℝ) * fpS + fpS * (T + (cosRad n j : ℕ)) ≤ 2 * ((T' + (cosRad (n + 1) j : ℕ)) * (T' + (cosRad (n + 1) j : ℕ))) := by exact_mod_cast h2
      rw [abs_le] at hp
      obtain ⟨p1, p2⟩ := hp
      have xS : 0 ≤ x * fpS := by positivity
      rw [abs_le]
      constructor
      · rcases h3 with h3 | h3
        · have h3' : (T' : ℝ) - (cosRad (n + 1) j : ℕ) ≤ 0 := by exact_mod_cast h3
          linarith
        · have h3' : 2 * (((T' : ℝ) - (cosRad (n + 1) j : ℕ)) * (T' - (cosRad (n + 1) j : ℕ))) ≤ fpS * fpS + fpS * (T - (cosRad n j : ℕ)) := by
            exact_mod_cast h3
          have : ((T' : ℝ) - (cosRad (n + 1) j : ℕ)) ≤ x * fpS := by
            apply le_of_sq_le_sq _ xS
            nlinarith [mul_le_mul_of_nonneg_left p1 hS.le]
          linarith
      · have : x * fpS ≤ (T' : ℝ) + (cosRad (n + 1) j : ℕ) := by
          apply le_of_sq_le_sq _ h1'
          nlinarith [mul_le_mul_of_nonneg_left p2 hS.le]
        linarith
    intro j hj
    rcases Nat.lt_or_ge (2 ^ n) j with hlt | hle
    · have h := low (2 ^ (n + 1) - j) (by rw [pow_succ] at hj ⊢; omega)
      have hi : (2 ^ (n + 1) - j) * 2 ^ (6 - (n + 1)) = 64 - j * 2 ^ (6 - (n + 1)) := by
        rw [Nat.sub_mul, ← pow_add, show n + 1 + (6 - (n + 1)) = 6 by omega, show 2 ^ 6 = 64 from rfl]
      have hle : j * 2 ^ (6 - (n + 1)) < 65 := by
        have : j * 2 ^ (6 - (n + 1)) ≤ 2 ^ (n + 1) * 2 ^ (6 - (n + 1)) := Nat.mul_le_mul_right _ hj
        rw [← pow_add, show n + 1 + (6 - (n + 1)) = 6 by omega] at this
        omega
      rw [hi, cosTab_anti _ hle] at h
      have hr : cosRad (n + 1) (2 ^ (n + 1) - j) = cosRad (n + 1) j := by
        unfold cosRad
        have : (2 ^ (n + 1) - j = 0 ∨ 2 ^ (n + 1) - j = 2 ^ (n + 1) ∨ 2 * (2 ^ (n + 1) - j) = 2 ^ (n + 1)) ↔
            (j = 0 ∨ j = 2 ^ (n + 1) ∨ 2 * j = 2 ^ (n + 1)) := by omega
        simp only [this]
      rw [hr] at h
      rw [Fp.ofInt_has] at h ⊢
      have e : cos (π * ((2 ^ (n + 1) - j : ℕ) : ℝ) / 2 ^ (n + 1)) = -cos (π * j / 2 ^ (n + 1)) := by
        rw [← cos_pi_sub, Nat.cast_sub hj]
        congr 1
        push_cast
        field_simp
      rw [e] at h
      generalize cosTab.getD (j * 2 ^ (6 - (n + 1))) 0 = T at *
      rw [abs_sub_comm] at h
      push_cast at h
      rw [show -(T : ℝ) - -cos (π * j / 2 ^ (n + 1)) * fpS = cos (π * j / 2 ^ (n + 1)) * fpS - T by ring] at h
      exact h
    · exact low j hle

/-- `π` -/
def fpPi : Fp := ⟨314159265358979323846 * fpS / 100000000000000000000, 0, fpS / 100000000000000000000 + 2⟩

/-- bounds for the modes in thousandths, for zero at both ends: for every `n` the modes `1, 2, …` of the grid of `2 ^ n` cells, for
`R = 1/10 + D/40` and `k = K/4` -/
def modeBd (D K : ℕ) : List (List ℕ) :=
  match D, K with
  | 88, 27 => [[],
      [32],
      [55, 71, 101],
      [1137, 643, 540, 1278, 947, 510, 458],
      [495, 396, 409, 1233, 706, 332, 344, 865, 1293, 396, 284, 276, 386, 553, 763],
      [494, 377, 394, 1139, 683, 297, 300, 782, 828, 289, 212, 329, 1270, 641, 264, 178, 201, 309, 699, 2626, 464, 259, 182, 143, 120, 105,
       95, 88, 83, 80, 78],
      [487, 373, 388, 1122, 671, 290, 291, 756, 784, 269, 195, 313, 1424, 502, 216, 148, 193, 340, 2158, 458, 202, 128, 93, 72, 59, 50, 43,
       38, 34, 30, 28, 26, 24, 22, 21, 19, 18, 17, 17, 16, 15, 15, 14, 14, 13, 13, 12, 12, 12, 12, 11, 11, 11, 11, 11, 10, 10, 10, 10, 10,
       10, 10, 10]]
  | 94, 27 => [[],
      [32],
      [51, 65, 91],
      [753, 2596, 1093, 553, 1148, 1816, 783],
      [2978, 1397, 500, 396, 787, 1330, 398, 334, 569, 6275, 763, 423, 331, 297, 309],
      [3633, 1244, 455, 364, 736, 1233, 359, 280, 516, 3661, 400, 240, 271, 562, 3410, 423, 239, 179, 239, 370, 840, 3443, 585, 329, 236,
       188, 160, 143, 131, 124, 120],
      [3645, 1215, 446, 354, 717, 1199, 344, 266, 493, 3164, 367, 220, 253, 566, 1503, 317, 184, 169, 249, 541, 2016, 337, 181, 122, 92,
       73, 61, 52, 45, 40, 36, 33, 30, 27, 25, 24, 22, 21, 20, 19, 18, 17, 17, 16, 16, 15, 15, 14, 14, 14, 13, 13, 13, 13, 12, 12, 12, 12,
       12, 12, 12, 12, 12]]
  | 108, 27 => [[],
      [31],
      [46, 57, 77],
      [823, 2094, 1503, 992, 3598, 687, 704],
      [1005, 598, 533, 976, 1675, 496, 452, 972, 1922, 535, 391, 429, 647, 1069, 1818],
      [849, 562, 487, 948, 1478, 450, 384, 830, 1463, 416, 307, 491, 3562, 649, 327, 258, 400, 1021, 1796, 494, 302, 229, 241, 306, 413,
       613, 1071, 2924, 7719, 2118, 1470],
      [838, 548, 478, 924, 1440, 433, 371, 794, 1382, 388, 285, 461, 4947, 530, 272, 239, 413, 2281, 606, 270, 183, 213, 329, 839, 1296,
       355, 203, 141, 108, 87, 73, 63, 55, 49, 44, 40, 37, 34, 32, 30, 28, 27, 26, 24, 23, 23, 22, 21, 20, 20, 19, 19, 19, 18, 18, 18, 17,
       17, 17, 17, 17, 17, 17]]
  | 89, 27 => [[],
      [32],
      [54, 70, 99],
      [2063, 800, 539, 889, 1356, 568, 478],
      [598, 426, 394, 830, 1067, 368, 316, 634, 3233, 485, 310, 273, 342, 461, 589],
      [593, 405, 367, 767, 1036, 330, 274, 561, 1581, 338, 220, 286, 744, 1047, 315, 194, 187, 270, 512, 5172, 649, 311, 209, 159, 132,
       114, 102, 94, 89, 85, 83],
      [585, 402, 361, 751, 1017, 321, 268, 542, 1483, 314, 203, 270, 758, 763, 253, 160, 176, 284, 886, 696, 242, 144, 102, 78, 63, 53, 45,
       40, 35, 32, 29, 27, 24, 23, 21, 20, 19, 18, 17, 16, 16, 15, 14, 14, 13, 13, 13, 12, 12, 12, 12, 11, 11, 11, 11, 11, 11, 11, 10, 10,
       10, 10, 10]]
  | 91, 27 => [[],
      [32],
      [53, 68, 95],
      [3527, 1652, 631, 597, 11004, 762, 547],
      [1143, 554, 396, 527, 1033595, 507, 306, 427, 1742, 868, 401, 302, 285, 354, 419],
      [1083, 525, 364, 489, 43035, 452, 278, 373, 2109, 526, 259, 231, 423, 4858, 501, 247, 177, 220, 342, 789, 2643, 507, 286, 204, 162,
       137, 121, 110, 103, 98, 95],
      [1064, 517, 358, 479, 39325, 439, 268, 363, 2064, 488, 238, 217, 406, 106574, 384, 197, 154, 218, 422, 26441, 385, 190, 125, 92, 73,
       60, 51, 44, 39, 35, 31, 29, 26, 25, 23, 21, 20, 19, 18, 17, 17, 16, 15, 15, 14, 14, 13, 13, 13, 12, 12, 12, 12, 12, 11, 11, 11, 11,
       11, 11, 11, 11, 11]]
  | 88, 43 => [[],
      [12],
      [16, 20, 26],
      [41, 46, 59, 109, 536, 495, 362],
      [365, 347, 409, 2354, 466, 278, 495, 1574, 318, 272, 386, 1430, 1112, 508, 391],
      [287, 297, 418, 54765, 360, 238, 376, 2160, 285, 206, 324, 17155, 305, 191, 223, 550, 853, 260, 173, 184, 304, 949, 883, 326, 217,
       173, 153, 150, 169, 187, 199],
      [276, 287, 420, 20421, 343, 227, 354, 2194, 267, 189, 295, 11333, 273, 166, 204, 621, 466, 182, 137, 205, 708, 433, 172, 119, 140,
       256, 2271, 319, 152, 103, 99, 133, 215, 616, 652, 210, 125, 89, 69, 57, 48, 42, 37, 34, 31, 28, 26, 25, 23, 22, 21, 20, 20, 19, 19,
       18, 18, 17, 17, 17, 17, 17, 17]]
  | 94, 43 => [[],
      [12],
      [16, 19, 25],
      [33, 36, 44, 67, 158, 1986, 464],
      [793, 3502, 683, 279, 374, 124584, 365, 303, 535, 1722, 416, 306, 316, 425, 565],
      [2543, 1378, 412, 287, 394, 7553, 342, 244, 394, 2584, 308, 218, 316, 2466, 405, 221, 208, 377, 5958, 446, 240, 186, 206, 304, 571,
       3146, 1078, 511, 363, 302, 276],
      [2963, 1260, 409, 282, 386, 7315, 327, 229, 363, 2663, 286, 196, 285, 3017, 328, 182, 194, 441, 859, 226, 150, 181, 398, 1200, 241,
       144, 125, 191, 455, 1034, 241, 140, 102, 114, 154, 252, 773, 691, 237, 143, 103, 80, 66, 57, 49, 44, 40, 37, 34, 32, 30, 29, 27, 26,
       25, 25, 24, 23, 23, 23, 22, 22, 22]]
  | 108, 43 => [[],
      [12],
      [15, 19, 24],
      [25, 27, 30, 39, 62, 115, 237],
      [495, 578, 1154, 1213, 425, 673, 2075, 421, 455, 1595, 824, 453, 409, 462, 552],
      [540, 987, 2394, 457, 351, 640, 1231, 353, 313, 719, 887, 320, 283, 542, 1629, 357, 260, 331, 848, 1139, 371, 252, 240, 324, 550,
       1670, 2158, 753, 505, 412, 372],
      [578, 1035, 1867, 437, 329, 608, 1165, 324, 285, 632, 852, 286, 248, 496, 1241, 293, 212, 315, 2110, 417, 215, 198, 357, 47383, 359,
       195, 166, 262, 802, 690, 247, 161, 146, 212, 418, 87527, 413, 210, 145, 116, 136, 174, 251, 458, 2801, 688, 310, 202, 152, 122, 103,
       90, 81, 73, 68, 64, 60, 57, 55, 54, 52, 52, 51]]
  | 89, 43 => [[],
      [12],
      [16, 20, 26],
      [39, 44, 56, 98, 388, 580, 349],
      [423, 362, 356, 768, 709, 294, 375, 4001, 412, 281, 314, 667, 12503, 824, 538],
      [310, 292, 332, 1082, 515, 250, 293, 1520, 391, 215, 254, 919, 463, 215, 191, 348, 50565, 360, 199, 167, 235, 463, 33870, 520, 277,
       204, 171, 157, 151, 161, 170],
      [298, 281, 334, 1071, 489, 238, 276, 1405, 366, 199, 232, 839, 409, 186, 172, 346, 1347, 232, 146, 167, 360, 1197, 226, 135, 121,
       191, 527, 632, 198, 120, 92, 116, 168, 328, 248620, 321, 160, 106, 80, 64, 53, 46, 41, 36, 33, 30, 28, 26, 25, 24, 23, 22, 21, 20,
       20, 19, 19, 18, 18, 18, 18, 17, 17]]
  | 91, 43 => [[],
      [12],
      [16, 20, 26],
      [36, 40, 50, 83, 247, 1044, 358],
      [856, 492, 337, 354, 4338, 414, 294, 541, 1396, 371, 288, 346, 693, 2960, 2918],
      [480, 354, 287, 401, 26368, 347, 238, 377, 2296, 298, 205, 321, 6178, 353, 200, 215, 445, 1978, 322, 201, 173, 242, 452, 3150, 718,
       349, 245, 201, 181, 171, 167],
      [452, 337, 283, 388, 17582, 335, 228, 360, 2323, 275, 192, 291, 8748, 297, 174, 197, 513, 604, 200, 142, 192, 504, 642, 201, 130,
       132, 218, 739, 497, 187, 119, 96, 122, 177, 351, 15929, 329, 166, 111, 83, 67, 56, 48, 43, 38, 35, 32, 30, 28, 27, 25, 24, 23, 22,
       22, 21, 20, 20, 20, 19, 19, 19, 19]]
  | _, _ => []

/-- the same for the values at the two ends -/
def modeBd' (D K : ℕ) : List (List ℕ) :=
  match D, K with
  | 88, 27 => [[],
      [243],
      [290, 332, 414],
      [6144, 3191, 2547, 6073, 4613, 2343, 2042],
      [4030, 2742, 2712, 7635, 4397, 2102, 2167, 4656, 6772, 2240, 1672, 1705, 2059, 2677, 3577],
      [4012, 2919, 2829, 7851, 4631, 2124, 2166, 5048, 5333, 2001, 1658, 2190, 7795, 3971, 1777, 1399, 1454, 1954, 4149, 15462, 2818, 1676,
       1288, 1117, 1037, 998, 970, 949, 934, 924, 918],
      [4086, 2918, 2833, 7872, 4644, 2139, 2166, 5087, 5287, 1990, 1665, 2248, 9587, 3487, 1688, 1386, 1539, 2457, 15217, 3372, 1631, 1187,
       1032, 990, 964, 942, 924, 908, 893, 880, 867, 856, 845, 835, 825, 816, 808, 799, 791, 784, 777, 770, 763, 757, 751, 746, 740, 735,
       730, 726, 722, 718, 714, 711, 708, 706, 703, 701, 699, 698, 697, 696, 696]]
  | 94, 27 => [[],
      [236],
      [264, 302, 373],
      [3764, 10975, 4674, 2551, 5652, 8047, 3225],
      [20927, 9393, 3150, 2410, 4514, 7332, 2249, 1941, 2924, 29954, 3631, 2022, 1664, 1641, 1674],
      [27783, 9216, 3161, 2439, 4624, 7605, 2300, 1957, 3173, 21538, 2472, 1664, 1799, 3270, 19083, 2494, 1552, 1365, 1509, 2106, 4545,
       18514, 3238, 1916, 1454, 1231, 1127, 1061, 1035, 1018, 1008],
      [28187, 9162, 3163, 2459, 4628, 7641, 2315, 1969, 3186, 19782, 2446, 1668, 1834, 3638, 9528, 2171, 1462, 1397, 1772, 3613, 13503,
       2391, 1428, 1121, 1013, 981, 956, 935, 917, 901, 887, 874, 862, 850, 840, 830, 820, 811, 803, 795, 787, 779, 773, 766, 760, 754,
       748, 743, 738, 733, 729, 725, 721, 718, 715, 712, 710, 707, 706, 704, 703, 702, 702]]
  | 108, 27 => [[],
      [225],
      [224, 256, 314],
      [2234, 4896, 4251, 2565, 14815, 3070, 2403],
      [6213, 3507, 2767, 4780, 8046, 2366, 2278, 4323, 8443, 2344, 1876, 1939, 2558, 4071, 6775],
      [5725, 3460, 2819, 5285, 8093, 2532, 2264, 4407, 7589, 2265, 1839, 2571, 17547, 3264, 1786, 1611, 2063, 4789, 8319, 2398, 1602, 1384,
       1388, 1553, 1968, 2789, 4780, 12881, 34187, 9395, 6527],
      [5700, 3530, 2835, 5316, 8134, 2538, 2263, 4398, 7620, 2281, 1866, 2653, 26974, 3006, 1732, 1650, 2406, 12588, 3448, 1715, 1379,
       1448, 1998, 4867, 7613, 2216, 1404, 1122, 1017, 983, 957, 935, 916, 899, 884, 871, 858, 847, 836, 826, 817, 808, 800, 792, 785, 778,
       771, 765, 759, 754, 749, 745, 741, 737, 733, 730, 728, 725, 723, 722, 720, 720, 719]]
  | 89, 27 => [[],
      [242],
      [285, 326, 406],
      [10875, 3800, 2544, 4041, 6562, 2566, 2077],
      [4831, 2962, 2588, 5075, 6433, 2268, 2039, 3397, 16660, 2608, 1755, 1643, 1874, 2270, 2741],
      [4806, 3149, 2611, 5205, 6894, 2273, 2040, 3649, 9936, 2252, 1662, 1943, 4542, 6344, 2030, 1443, 1398, 1734, 3033, 29994, 3843, 1942,
       1403, 1173, 1060, 1017, 986, 964, 947, 936, 930],
      [4881, 3148, 2613, 5218, 6918, 2302, 2040, 3655, 9822, 2236, 1659, 1989, 5072, 5156, 1885, 1410, 1457, 2065, 6181, 4977, 1874, 1268,
       1060, 998, 970, 948, 929, 912, 897, 883, 870, 859, 848, 837, 828, 818, 810, 801, 793, 786, 778, 771, 765, 758, 752, 747, 741, 736,
       732, 727, 723, 719, 715, 712, 709, 707, 704, 702, 700, 699, 698, 697, 697]]
  | 91, 27 => [[],
      [240],
      [276, 316, 392],
      [17941, 7331, 2829, 2661, 53168, 3379, 2298],
      [8859, 3834, 2572, 3216, 5963067, 2935, 1960, 2375, 8844, 4291, 2087, 1622, 1677, 1844, 2032],
      [8654, 4032, 2589, 3282, 275836, 2950, 1965, 2494, 12987, 3276, 1785, 1704, 2602, 28363, 3010, 1652, 1384, 1485, 2043, 4461, 14864,
       2938, 1761, 1351, 1162, 1062, 1024, 997, 978, 965, 957],
      [8714, 4027, 2591, 3288, 260134, 2970, 1974, 2497, 13326, 3261, 1776, 1715, 2745, 693797, 2640, 1551, 1381, 1639, 2921, 181535, 2784,
       1517, 1151, 1022, 985, 960, 939, 921, 904, 890, 877, 864, 853, 842, 832, 823, 814, 805, 797, 789, 782, 775, 768, 761, 755, 749, 744,
       739, 734, 729, 725, 721, 718, 714, 711, 709, 706, 704, 702, 701, 700, 699, 699]]
  | 88, 43 => [[],
      [233],
      [179, 206, 246],
      [403, 419, 447, 493, 3198, 2827, 1525],
      [3532, 3214, 3652, 20934, 3979, 2371, 4080, 12383, 2587, 2206, 2921, 9931, 7712, 3505, 2700],
      [3227, 3218, 4819, 612802, 3878, 2595, 3852, 21526, 2876, 2203, 3230, 163362, 3008, 1948, 2215, 4989, 7648, 2373, 1774, 1863, 2667,
       7988, 7370, 2769, 1932, 1639, 1550, 1577, 1640, 1713, 1772],
      [3365, 3302, 4951, 239027, 3882, 2598, 3845, 23338, 2951, 2207, 3220, 119256, 2960, 1978, 2311, 6477, 4925, 2071, 1751, 2296, 7357,
       4565, 1973, 1564, 1721, 2765, 23700, 3442, 1787, 1398, 1362, 1599, 2400, 6722, 7235, 2439, 1566, 1229, 1076, 1013, 982, 957, 936,
       918, 902, 889, 876, 865, 855, 846, 838, 831, 824, 818, 813, 808, 804, 800, 798, 795, 793, 792, 791]]
  | 94, 43 => [[],
      [230],
      [172, 198, 237],
      [346, 358, 381, 415, 1270, 17837, 3901],
      [8164, 35886, 6880, 2674, 3509, 1096648, 3068, 2435, 3947, 11949, 2857, 2053, 2086, 2736, 3578],
      [31009, 16557, 4800, 3045, 4006, 73957, 3328, 2452, 3738, 23562, 2840, 2134, 2900, 21329, 3475, 2033, 2013, 3152, 48033, 3627, 2013,
       1736, 1846, 2447, 4317, 23394, 7924, 3834, 2802, 2374, 2184],
      [36648, 15326, 4729, 3047, 4048, 74763, 3403, 2454, 3701, 26339, 2940, 2143, 2926, 29567, 3302, 1989, 2111, 4355, 8349, 2338, 1740,
       1975, 3899, 11602, 2460, 1648, 1573, 2027, 4457, 10050, 2480, 1590, 1358, 1388, 1680, 2603, 7814, 7071, 2536, 1637, 1280, 1109,
       1028, 996, 970, 949, 931, 915, 901, 889, 879, 869, 861, 853, 847, 841, 836, 832, 828, 825, 823, 822, 821]]
  | 108, 43 => [[],
      [226],
      [159, 184, 222],
      [268, 278, 294, 318, 687, 1576, 3469],
      [3282, 3837, 7509, 7378, 2628, 4090, 12628, 2562, 2724, 8597, 4293, 2400, 2221, 2483, 2919],
      [5304, 9550, 22588, 4043, 3030, 5362, 10096, 2888, 2672, 5691, 6822, 2562, 2325, 4205, 11969, 2687, 2034, 2464, 5892, 7772, 2588,
       1940, 1859, 2328, 3643, 10669, 13778, 4781, 3193, 2654, 2433],
      [5758, 10524, 18753, 4192, 3049, 5471, 10301, 2965, 2666, 5506, 7395, 2588, 2327, 4302, 10577, 2595, 2049, 2789, 17685, 3586, 2000,
       1930, 3090, 392157, 3073, 1841, 1726, 2316, 6589, 5691, 2189, 1604, 1555, 1925, 3501, 719367, 3486, 1907, 1464, 1337, 1386, 1621,
       2204, 3923, 23897, 5963, 2772, 1888, 1491, 1275, 1153, 1080, 1033, 1012, 994, 980, 968, 959, 951, 945, 940, 937, 935]]
  | 89, 43 => [[],
      [233],
      [178, 204, 245],
      [391, 407, 434, 477, 2463, 3658, 1732],
      [4263, 3465, 3181, 6686, 5972, 2469, 3090, 31148, 3227, 2212, 2425, 4520, 84265, 5570, 3618],
      [3595, 3260, 3732, 11833, 5474, 2660, 3006, 14961, 3843, 2246, 2586, 8592, 4378, 2121, 2009, 3187, 439688, 3172, 1922, 1752, 2127,
       3925, 275827, 4273, 2349, 1825, 1604, 1554, 1566, 1596, 1624],
      [3726, 3254, 3807, 12262, 5467, 2666, 3029, 14809, 3930, 2249, 2582, 8735, 4306, 2117, 2038, 3650, 13901, 2518, 1773, 1946, 3757,
       12340, 2453, 1645, 1588, 2133, 5448, 6597, 2196, 1509, 1345, 1451, 1906, 3568, 2688815, 3583, 1889, 1368, 1144, 1039, 998, 971, 948,
       928, 912, 897, 884, 872, 862, 852, 844, 836, 829, 823, 818, 813, 809, 805, 802, 800, 798, 796, 796]]
  | 91, 43 => [[],
      [232],
      [175, 201, 241],
      [371, 385, 410, 449, 1744, 7780, 2297],
      [9685, 5234, 3263, 3120, 36082, 3424, 2422, 4186, 10315, 2721, 2127, 2403, 4511, 18940, 18531],
      [5753, 4114, 3163, 4220, 270365, 3543, 2456, 3756, 21877, 2911, 2171, 3013, 55703, 3234, 2003, 2088, 3878, 16559, 2810, 1839, 1760,
       2140, 3701, 24674, 5634, 2797, 2075, 1764, 1622, 1580, 1565],
      [5797, 4071, 3161, 4271, 189995, 3585, 2526, 3785, 23807, 2934, 2174, 3071, 88424, 3103, 1980, 2199, 5230, 6132, 2183, 1741, 2108,
       5102, 6452, 2174, 1590, 1632, 2321, 7470, 5059, 2053, 1469, 1345, 1466, 1958, 3713, 167996, 3581, 1907, 1384, 1155, 1047, 1003, 974,
       951, 932, 915, 901, 888, 876, 866, 857, 848, 841, 834, 829, 823, 819, 815, 812, 809, 807, 806, 805]]
  | _, _ => []

/-- the check of the mode `j` for `N = 2 ^ n` cells, `R = 1/10 + D/40`, `k = K/4` -/
def certMode (n D K j : ℕ) : Bool :=
  (fun σ : Fp => stMode (Fp.rat ((D * K) ^ 2) ((160 * 2 ^ n) ^ 2)) σ
    (σ.mul ((Fp.nat (16 * (2 ^ n) ^ 2)).div ((Fp.nat 49).mul (fpPi.mul fpPi)))) D (4 * 2 ^ n) (2 ^ n)
    fun B B' => Nat.ble (B * (24000 * D ^ 2)) (((modeBd D K).getD n []).getD (j - 1) 0 * (fpS * (40 * 2 ^ n) ^ 2)) &&
      Nat.ble (B' * 1000) (((modeBd' D K).getD n []).getD (j - 1) 0 * fpS))
  ((Fp.nat 2).sub ((Fp.nat 2).mul (Fp.ofInt (cosTab.getD (j * 2 ^ (6 - n)) 0) (cosRad n j))))

/-- the modes `a + 1, …, a + c` -/
def certBlock (n D K a c : ℕ) : Prop := ∀ i < c, certMode n D K (a + i + 1) = true
instance (n D K a c : ℕ) : Decidable (certBlock n D K a c) := by unfold certBlock; infer_instance

/-- the modes of 64 cells -/
theorem certBlock_join {n D K : ℕ} (h0 : certBlock n D K 0 16) (h1 : certBlock n D K 16 16) (h2 : certBlock n D K 32 16)
    (h3 : certBlock n D K 48 15) : certBlock n D K 0 63 := by
  intro i hi
  rcases Nat.lt_or_ge i 16 with h | h
  · exact h0 i h
  rcases Nat.lt_or_ge i 32 with h' | h'
  · have := h1 (i - 16) (by omega)
    rwa [show 16 + (i - 16) + 1 = 0 + i + 1 by omega] at this
  rcases Nat.lt_or_ge i 48 with h'' | h''
  · have := h2 (i - 32) (by omega)
    rwa [show 32 + (i - 32) + 1 = 0 + i + 1 by omega] at this
  · have := h3 (i - 48) (by omega)
    rwa [show 48 + (i - 48) + 1 = 0 + i + 1 by omega] at this

end Pot
