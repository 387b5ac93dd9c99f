import Mathlib.Data.Complex.Basic
import Mathlib.Data.Fin.Tuple.Basic

/-!
# Specification: grid functions with a zero frame, and the finite-difference schemes on ℤ × ℤ
-/

namespace Spec

/-- value at the integer node `(i, j)` of an interior array of shape `(n, n)` (node `(1,1)` is index
`[0,0]`), zero outside -/
def node {n : ℕ} (v : Fin n → Fin n → ℂ) (i j : ℤ) : ℂ :=
  if h : 1 ≤ i ∧ i ≤ n ∧ 1 ≤ j ∧ j ≤ n then
    v ⟨(i - 1).toNat, by omega⟩ ⟨(j - 1).toNat, by omega⟩
  else 0

/-- value at the integer node `(i, j)` of a full array of shape `(n+2, n+2)` (node `(0,0)` is index `[0,0]`) -/
def fullNode {n : ℕ} (v : Fin (n + 2) → Fin (n + 2) → ℂ) (i j : ℤ) : ℂ :=
  if h : 0 ≤ i ∧ i ≤ n + 1 ∧ 0 ≤ j ∧ j ≤ n + 1 then
    v ⟨i.toNat, by omega⟩ ⟨j.toNat, by omega⟩
  else 0

/-- `v` surrounded by a frame of zeros -/
def pad {n : ℕ} (v : Fin n → Fin n → ℂ) : Fin (n + 2) → Fin (n + 2) → ℂ :=
  fun p q => node v (p : ℕ) (q : ℕ)

/-- second central difference in the first index -/
def dxx (u : ℤ → ℤ → ℂ) (i j : ℤ) : ℂ := u (i + 1) j - 2 * u i j + u (i - 1) j
/-- second central difference in the second index -/
def dyy (u : ℤ → ℤ → ℂ) (i j : ℤ) : ℂ := u i (j + 1) - 2 * u i j + u i (j - 1)

/-- the five-point Helmholtz operator -/
noncomputable def L2 (h k : ℝ) (u : ℤ → ℤ → ℂ) (i j : ℤ) : ℂ :=
  (dxx u i j + dyy u i j) / h ^ 2 + k ^ 2 * u i j

/-- the compact fourth-order operator: `Δ_h u + (h²/6) δ_x²δ_y² u + k² (1 + h²/12 Δ_h) u`, divided
differences -/
noncomputable def L4 (h k : ℝ) (u : ℤ → ℤ → ℂ) (i j : ℤ) : ℂ :=
  (dxx u i j + dyy u i j + dxx (dyy u) i j / 6) / h ^ 2
    + k ^ 2 * (u i j + (dxx u i j + dyy u i j) / 12)

/-- the compact averaging of the right-hand side, `(1 + h²/12 Δ_h) f` -/
noncomputable def B4 (f : ℤ → ℤ → ℂ) (i j : ℤ) : ℂ := f i j + (dxx f i j + dyy f i j) / 12

/-- the scheme of a given order -/
noncomputable def Lh (order : ℕ) (h k : ℝ) (u : ℤ → ℤ → ℂ) (i j : ℤ) : ℂ :=
  if order = 4 then L4 h k u i j else L2 h k u i j

end Spec
