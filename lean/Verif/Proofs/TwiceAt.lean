import Verif.Spec.PolarHelm
import Verif.Model.ZAlgebra
import Mathlib.Analysis.Calculus.Deriv.Mul
import Mathlib.Analysis.Calculus.Deriv.Add
import Mathlib.Analysis.Calculus.Deriv.Pow
import Mathlib.Analysis.SpecialFunctions.Trigonometric.Deriv
import Mathlib.Tactic.FieldSimp
import Mathlib.Tactic.Linarith

/-!
# Rules for second derivatives at a point
-/

namespace Spec
open Pot Filter Topology Real

theorem TwiceAt.deriv_eq {φ : ℝ → ℝ} {x d1 d2 : ℝ} (h : TwiceAt φ x d1 d2) : deriv φ x = d1 := by
  obtain ⟨d, h1, rfl, -⟩ := h
  exact h1.self_of_nhds.deriv

theorem TwiceAt.deriv2_eq {φ : ℝ → ℝ} {x d1 d2 : ℝ} (h : TwiceAt φ x d1 d2) : deriv (deriv φ) x = d2 := by
  obtain ⟨d, h1, -, h2⟩ := h
  have : deriv φ =ᶠ[𝓝 x] d := h1.mono fun y hy => hy.deriv
  rw [this.deriv_eq, h2.deriv]

theorem TwiceAt.add {φ ψ : ℝ → ℝ} {x d1 d2 e1 e2 : ℝ} (h : TwiceAt φ x d1 d2) (h' : TwiceAt ψ x e1 e2) :
    TwiceAt (fun y => φ y + ψ y) x (d1 + e1) (d2 + e2) := by
  obtain ⟨d, a1, rfl, a2⟩ := h
  obtain ⟨e, b1, rfl, b2⟩ := h'
  exact ⟨fun y => d y + e y, (a1.and b1).mono fun y hy => hy.1.fun_add hy.2, rfl, a2.fun_add b2⟩

theorem TwiceAt.sub {φ ψ : ℝ → ℝ} {x d1 d2 e1 e2 : ℝ} (h : TwiceAt φ x d1 d2) (h' : TwiceAt ψ x e1 e2) :
    TwiceAt (fun y => φ y - ψ y) x (d1 - e1) (d2 - e2) := by
  obtain ⟨d, a1, rfl, a2⟩ := h
  obtain ⟨e, b1, rfl, b2⟩ := h'
  exact ⟨fun y => d y - e y, (a1.and b1).mono fun y hy => hy.1.fun_sub hy.2, rfl, a2.fun_sub b2⟩

theorem TwiceAt.mul {φ ψ : ℝ → ℝ} {x d1 d2 e1 e2 : ℝ} (h : TwiceAt φ x d1 d2) (h' : TwiceAt ψ x e1 e2) :
    TwiceAt (fun y => φ y * ψ y) x (d1 * ψ x + φ x * e1) (d2 * ψ x + 2 * (d1 * e1) + φ x * e2) := by
  obtain ⟨d, a1, rfl, a2⟩ := h
  obtain ⟨e, b1, rfl, b2⟩ := h'
  refine ⟨fun y => d y * ψ y + φ y * e y, (a1.and b1).mono fun y hy => hy.1.fun_mul hy.2, rfl, ?_⟩
  refine HasDerivAt.congr_deriv ((a2.fun_mul b1.self_of_nhds).fun_add (a1.self_of_nhds.fun_mul b2)) ?_
  ring

theorem TwiceAt.const_mul (c : ℝ) {φ : ℝ → ℝ} {x d1 d2 : ℝ} (h : TwiceAt φ x d1 d2) :
    TwiceAt (fun y => c * φ y) x (c * d1) (c * d2) := by
  obtain ⟨d, a1, rfl, a2⟩ := h
  exact ⟨fun y => c * d y, a1.mono fun y hy => hy.const_mul c, rfl, a2.const_mul c⟩

theorem TwiceAt.mul_const (c : ℝ) {φ : ℝ → ℝ} {x d1 d2 : ℝ} (h : TwiceAt φ x d1 d2) :
    TwiceAt (fun y => φ y * c) x (d1 * c) (d2 * c) := by
  obtain ⟨d, a1, rfl, a2⟩ := h
  exact ⟨fun y => d y * c, a1.mono fun y hy => hy.mul_const c, rfl, a2.mul_const c⟩

theorem TwiceAt.congr {φ ψ : ℝ → ℝ} {x d1 d2 e1 e2 : ℝ} (h : TwiceAt φ x d1 d2) (h0 : ∀ y, ψ y = φ y) (h1 : d1 = e1)
    (h2 : d2 = e2) : TwiceAt ψ x e1 e2 := by
  rw [← h1, ← h2, show ψ = φ from funext h0]; exact h

theorem TwiceAt.congr_of_eventuallyEq {φ ψ : ℝ → ℝ} {x d1 d2 : ℝ} (h : TwiceAt φ x d1 d2) (h0 : ψ =ᶠ[𝓝 x] φ) :
    TwiceAt ψ x d1 d2 := by
  obtain ⟨d, a1, rfl, a2⟩ := h
  refine ⟨d, ?_, rfl, a2⟩
  filter_upwards [a1, eventually_eventually_nhds.2 h0] with y hy hy'
  exact hy.congr_of_eventuallyEq hy'

/-- two derivatives given everywhere -/
theorem TwiceAt.of_forall {φ d e : ℝ → ℝ} (h1 : ∀ y, HasDerivAt φ (d y) y) (h2 : ∀ y, HasDerivAt d (e y) y) (x : ℝ) :
    TwiceAt φ x (d x) (e x) := ⟨d, .of_forall h1, rfl, h2 x⟩

theorem TwiceAt.const (c x : ℝ) : TwiceAt (fun _ => c) x 0 0 :=
  .of_forall (d := fun _ => 0) (e := fun _ => 0) (fun _ => hasDerivAt_const _ _) (fun _ => hasDerivAt_const _ _) x

theorem TwiceAt.sq (x : ℝ) : TwiceAt (fun y => y ^ 2) x (2 * x) 2 :=
  .of_forall (d := fun y => 2 * y) (e := fun _ => 2) (fun y => by simpa using hasDerivAt_pow 2 y)
    (fun y => by simpa using (hasDerivAt_id' y).const_mul 2) x

theorem TwiceAt.sin (w c x : ℝ) :
    TwiceAt (fun y => Real.sin (w * (y - c))) x (w * Real.cos (w * (x - c))) (-w ^ 2 * Real.sin (w * (x - c))) := by
  have hl : ∀ y, HasDerivAt (fun y => w * (y - c)) w y := fun y =>
    HasDerivAt.congr_deriv (((hasDerivAt_id' y).sub_const c).const_mul w) (by ring)
  refine .of_forall (d := fun y => w * Real.cos (w * (y - c))) (e := fun y => -w ^ 2 * Real.sin (w * (y - c))) ?_ ?_ x
  · intro y
    exact (hl y).sin.congr_deriv (by ring)
  · intro y
    exact ((hl y).cos.const_mul w).congr_deriv (by ring)

theorem HelmholtzAt.helmOp_eq {k : ℝ} {u : ℝ → ℝ → ℝ} {F r th : ℝ} (h : HelmholtzAt k u F r th) : helmOp k u r th = F := by
  obtain ⟨ur, urr, ut, utt, h1, h2, h3⟩ := h
  rw [← h3]
  simp only [helmOp]
  rw [h1.deriv2_eq, h1.deriv_eq, h2.deriv2_eq]

theorem HelmholtzAt.of_twice {k : ℝ} {u : ℝ → ℝ → ℝ} {r th ur urr ut utt : ℝ} (h1 : TwiceAt (fun ρ => u ρ th) r ur urr)
    (h2 : TwiceAt (u r) th ut utt) : HelmholtzAt k u (helmOp k u r th) r th := by
  refine ⟨ur, urr, ut, utt, h1, h2, ?_⟩
  simp only [helmOp]
  rw [h1.deriv2_eq, h1.deriv_eq, h2.deriv2_eq]

theorem HelmholtzAt.add {k : ℝ} {u v : ℝ → ℝ → ℝ} {F G r th : ℝ} (h : HelmholtzAt k u F r th) (h' : HelmholtzAt k v G r th) :
    HelmholtzAt k (fun r th => u r th + v r th) (F + G) r th := by
  obtain ⟨_, _, _, _, h1, h2, h3⟩ := h
  obtain ⟨_, _, _, _, g1, g2, g3⟩ := h'
  refine ⟨_, _, _, _, h1.add g1, h2.add g2, ?_⟩
  rw [← h3, ← g3]
  ring

theorem HelmholtzAt.sub {k : ℝ} {u v : ℝ → ℝ → ℝ} {F G r th : ℝ} (h : HelmholtzAt k u F r th) (h' : HelmholtzAt k v G r th) :
    HelmholtzAt k (fun r th => u r th - v r th) (F - G) r th := by
  obtain ⟨_, _, _, _, h1, h2, h3⟩ := h
  obtain ⟨_, _, _, _, g1, g2, g3⟩ := h'
  refine ⟨_, _, _, _, h1.sub g1, h2.sub g2, ?_⟩
  rw [← h3, ← g3]
  ring

theorem HelmholtzAt.zero (k r th : ℝ) : HelmholtzAt k (fun _ _ => 0) 0 r th :=
  ⟨0, 0, 0, 0, TwiceAt.const 0 r, TwiceAt.const 0 th, by simp⟩

theorem HelmholtzAt.sum {k r th : ℝ} {ι : Type} (s : Finset ι) {u : ι → ℝ → ℝ → ℝ} {F : ι → ℝ}
    (h : ∀ i ∈ s, HelmholtzAt k (u i) (F i) r th) :
    HelmholtzAt k (fun r th => ∑ i ∈ s, u i r th) (∑ i ∈ s, F i) r th := by
  classical
  induction s using Finset.induction_on with
  | empty => simpa using HelmholtzAt.zero k r th
  | insert i s hi ih =>
    have := HelmholtzAt.add (h i (by simp)) (ih fun j hj => h j (by simp [hj]))
    simpa [Finset.sum_insert hi] using this

/-- only the values on the cross through the point matter -/
theorem HelmholtzAt.congr_cross {k : ℝ} {u v : ℝ → ℝ → ℝ} {F r th : ℝ} (h : HelmholtzAt k u F r th)
    (h1 : ∀ᶠ ρ in 𝓝 r, v ρ th = u ρ th) (h2 : ∀ᶠ θ in 𝓝 th, v r θ = u r θ) : HelmholtzAt k v F r th := by
  obtain ⟨ur, urr, ut, utt, a1, a2, a3⟩ := h
  refine ⟨ur, urr, ut, utt, a1.congr_of_eventuallyEq h1, a2.congr_of_eventuallyEq h2, ?_⟩
  rw [h1.self_of_nhds, a3]

/-- a radial factor times a sine of the angle -/
theorem HelmholtzAt.mode (k w c : ℝ) {φ : ℝ → ℝ} {r d1 d2 : ℝ} (h : TwiceAt φ r d1 d2) (th : ℝ) :
    HelmholtzAt k (fun r th => φ r * Real.sin (w * (th - c)))
      ((d2 + d1 / r + (k ^ 2 - (w / r) ^ 2) * φ r) * Real.sin (w * (th - c))) r th := by
  refine ⟨_, _, _, _, h.mul_const _, (TwiceAt.sin w c th).const_mul _, ?_⟩
  ring

end Spec
