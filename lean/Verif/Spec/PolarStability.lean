import Verif.Spec.PolarModes

/-!
# Specification: stability of the compact polar scheme

How large a grid function can be that is zero on the two rays and at most `β` on the two circles, when the scheme makes of it values of at
most `T`.
-/

namespace Spec

/-- the inner values of the mode `j` are at most `κ` times the right-hand side of its recurrence plus `κ'` times its values at the two ends -/
def ModeStable (h t k : ℝ) (ρ : ℤ → ℝ) (N j : ℕ) (κ κ' : ℝ) : Prop :=
  ∀ (w : ℤ → ℂ) (T β : ℝ), 0 ≤ T → 0 ≤ β → ‖w 0‖ ≤ β → ‖w N‖ ≤ β →
    (∀ m : ℕ, 0 < m → m < N → ‖modeL h t k ρ (modeS t N j) w m‖ ≤ T) → ∀ m : ℕ, 0 < m → m < N → ‖w m‖ ≤ κ * T + κ' * β

/-- the inner values of a grid function that is zero on the rays are at most `κ` times what the scheme makes of it plus `κ'` times its values
on the two circles -/
def SchemeStable (h t k : ℝ) (ρ : ℤ → ℝ) (N : ℕ) (κ κ' : ℝ) : Prop :=
  ∀ (V : ℤ → ℤ → ℂ) (T β : ℝ), 0 ≤ T → 0 ≤ β → (∀ m : ℕ, m ≤ N → V m 0 = 0 ∧ V m N = 0) →
    (∀ l : ℕ, 0 < l → l < N → ‖V 0 l‖ ≤ β ∧ ‖V N l‖ ≤ β) →
    (∀ m l : ℕ, 0 < m → m < N → 0 < l → l < N → ‖polarL4 h t k ρ V m l‖ ≤ T) →
    ∀ m l : ℕ, 0 < m → m < N → 0 < l → l < N → ‖V m l‖ ≤ κ * T + κ' * β

/-- the distance between the inner and the outer circle of the shipped boundaries, in fortieths -/
def arcCells (bname : String) : ℕ :=
  match bname with
  | "outer-sine" => 94
  | "inner-sine" => 108
  | "sine7" => 89
  | "cubic" => 91
  | _ => 88

/-- constants `κ`, `κ'` of the scheme on the grids of `1, 2, 4, …, 64` cells from the inner radius `1/10` to `1/10 + D/40` in the wedge from
`π/4` to `2π`, for the wave number `K/4` -/
def shippedStab (D K : ℕ) : List (ℕ × ℕ) :=
  match D, K with
| 88, 27 => [(0, 0), (1, 1), (1, 3), (12, 54), (18, 103), (29, 189), (26, 234)]
  | 94, 27 => [(0, 0), (1, 1), (1, 2), (18, 78), (35, 191), (51, 315), (40, 323)]
  | 108, 27 => [(0, 0), (1, 1), (1, 2), (21, 69), (28, 125), (70, 339), (46, 306)]
  | 89, 27 => [(0, 0), (1, 1), (1, 3), (14, 65), (21, 119), (35, 225), (24, 221)]
  | 91, 27 => [(0, 0), (1, 1), (1, 2), (38, 180), (2084, 12023), (124, 790), (365, 2464)]
  | 88, 43 => [(0, 0), (1, 1), (1, 2), (4, 19), (22, 172), (167, 1773), (93, 1067)]
  | 94, 43 => [(0, 0), (1, 1), (1, 2), (6, 50), (271, 2377), (69, 626), (61, 654)]
  | 108, 43 => [(0, 0), (1, 1), (1, 2), (2, 14), (24, 140), (45, 340), (321, 2687)]
  | 89, 43 => [(0, 0), (1, 1), (1, 2), (4, 20), (46, 333), (191, 1645), (527, 5729)]
  | 91, 43 => [(0, 0), (1, 1), (1, 2), (4, 27), (34, 254), (96, 930), (112, 1205)]
  | _, _ => []

/-- ten times the constants of the first seven modes on the same grids -/
def shippedLow (D K : ℕ) : List (ℕ × ℕ) :=
  match D, K with
  | 88, 27 => [(0, 0), (1, 3), (2, 5), (13, 62), (13, 77), (12, 79), (12, 79)]
  | 94, 27 => [(0, 0), (1, 3), (1, 4), (26, 110), (30, 210), (37, 278), (37, 282)]
  | 108, 27 => [(0, 0), (1, 3), (1, 4), (36, 149), (17, 81), (15, 81), (15, 82)]
  | 89, 27 => [(0, 0), (1, 3), (1, 5), (21, 109), (11, 65), (11, 69), (11, 70)]
  | 91, 27 => [(0, 0), (1, 3), (1, 4), (111, 532), (10336, 59631), (431, 2759), (394, 2602)]
  | 88, 43 => [(0, 0), (1, 3), (1, 3), (6, 32), (24, 210), (548, 6129), (205, 2391)]
  | 94, 43 => [(0, 0), (1, 3), (1, 3), (20, 179), (1246, 10967), (76, 740), (74, 748)]
  | 108, 43 => [(0, 0), (1, 3), (1, 3), (3, 35), (21, 127), (24, 226), (19, 188)]
  | 89, 43 => [(0, 0), (1, 3), (1, 3), (6, 37), (8, 67), (11, 119), (11, 123)]
  | 91, 43 => [(0, 0), (1, 3), (1, 3), (11, 78), (44, 361), (264, 2704), (176, 1900)]
  | _, _ => []

end Spec
