import Verif.Proofs.PolarModes
import Verif.Proofs.FixedPoint

/-!
# The coefficients of the recurrence of a mode

Twenty-four times `h²` times the recurrence of a mode has real coefficients in terms of `X m = h / ρ m`, `κ = h² k²`, `σ = t² s` and
`y = s`.
-/

namespace Pot
open Real Finset Spec

section
variable (κ σ y : ℝ) (X : ℕ → ℝ)

/-- `12 - σ + h² (k² - s / ρ²)` -/
def pvE (m : ℕ) : ℝ := 12 - σ + κ - y * (X m * X m)
/-- coefficient of the next value -/
def pvUp (m : ℕ) : ℝ := (2 + X m) * pvE κ σ y X (m + 1) + (X m * X m * X m + X m * X m * X m)
/-- coefficient of the previous value -/
def pvDn (m : ℕ) : ℝ := (2 - X m) * pvE κ σ y X (m - 1) - (X m * X m * X m + X m * X m * X m)
/-- coefficient of the value itself -/
def pvDg (m : ℕ) : ℝ := (pvE κ σ y X m - (12 - σ)) * (20 + (X m * X m + X m * X m)) - 2 * (24 + σ * (κ - 2))
end

/-! ## Their enclosures -/

/-- enclosure of `X m = D / (b + m D)` -/
def fpX (D b m : ℕ) : Fp := Fp.rat D (Nat.add b (Nat.mul m D))
/-- enclosure of `pvE`; `W` encloses `12 - σ + κ` -/
def fpE (W y : Fp) (D b m : ℕ) : Fp := (fpX D b m).force fun x => (x.mul x).force fun x2 => (y.mul x2).force fun z => W.sub z

/-- `2 x³` -/
def fpCube (x : Fp) : Fp := (x.mul x).force fun x2 => (x2.mul x).force fun x3 => x3.add x3
/-- enclosure of `pvDg` -/
def fpDg (E F x e1 : Fp) : Fp :=
  (x.mul x).force fun x2 => ((Fp.nat 20).add (x2.add x2)).force fun a => ((e1.sub E).mul a).force fun g => g.sub F
/-- enclosure of `pvUp` -/
def fpUp (x x3 e2 : Fp) : Fp := (((Fp.nat 2).add x).mul e2).force fun d => d.add x3

section
variable {κ σ y : ℝ} {D b : ℕ}

theorem fpX_has (m : ℕ) : (fpX D b m).Has ((D : ℝ) / (b + m * D)) := by
  have := Fp.rat_has D (b + m * D)
  push_cast at this
  exact this

theorem fpE_has {fW fy : Fp} (hW : fW.Has (12 - σ + κ)) (hy : fy.Has y) (m : ℕ) :
    (fpE fW fy D b m).Has (pvE κ σ y (fun m => (D : ℝ) / (b + m * D)) m) := by
  simp only [fpE, Fp.force_eq]
  have hx := Fp.norm_has (fpX_has (D := D) (b := b) m)
  exact Fp.sub_has hW (Fp.norm_has (Fp.mul_has hy (Fp.norm_has (Fp.mul_has hx hx))))

theorem fpCube_has {f : Fp} {x : ℝ} (hx : f.Has x) : (fpCube f).Has (x * x * x + x * x * x) := by
  simp only [fpCube, Fp.force_eq]
  have := Fp.norm_has (Fp.mul_has (Fp.norm_has (Fp.mul_has hx hx)) hx)
  exact Fp.add_has this this

theorem fpUp_has {fx fx3 e2 : Fp} {x a : ℝ} (hx : fx.Has x) (hx3 : fx3.Has (x * x * x + x * x * x)) (h2 : e2.Has a) :
    (fpUp fx fx3 e2).Has ((2 + x) * a + (x * x * x + x * x * x)) := by
  simp only [fpUp, Fp.force_eq]
  have i2 := Fp.nat_has 2
  push_cast at i2
  exact Fp.add_has (Fp.norm_has (Fp.mul_has (Fp.add_has i2 hx) h2)) hx3

end

end Pot
