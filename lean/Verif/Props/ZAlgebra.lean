import Verif.Proofs.TwiceAt

/-!
# C51: the regularised source of the z-method
-/

namespace Pot
open Spec Filter Topology Real

theorem pPoly_twice (x : ℝ) : TwiceAt pPoly x (30 * x ^ 2 - 60 * x ^ 3 + 30 * x ^ 4) (60 * x - 180 * x ^ 2 + 120 * x ^ 3) := by
  refine .of_forall (d := fun x => 30 * x ^ 2 - 60 * x ^ 3 + 30 * x ^ 4) (e := fun x => 60 * x - 180 * x ^ 2 + 120 * x ^ 3) ?_ ?_ x
  · intro y
    refine HasDerivAt.congr_deriv ((((hasDerivAt_pow 3 y).const_mul 10).fun_sub ((hasDerivAt_pow 4 y).const_mul 15)).fun_add
      ((hasDerivAt_pow 5 y).const_mul 6)) ?_
    norm_num; ring
  · intro y
    refine HasDerivAt.congr_deriv ((((hasDerivAt_pow 2 y).const_mul 30).fun_sub ((hasDerivAt_pow 3 y).const_mul 60)).fun_add
      ((hasDerivAt_pow 4 y).const_mul 30)) ?_
    norm_num; ring

/-- composition with an affine function -/
theorem _root_.Spec.TwiceAt.comp_affine {φ : ℝ → ℝ} (s c : ℝ) {x d1 d2 : ℝ} (h : TwiceAt φ (s * x + c) d1 d2) :
    TwiceAt (fun y => φ (s * y + c)) x (s * d1) (s ^ 2 * d2) := by
  obtain ⟨d, h1, rfl, h2⟩ := h
  have hl : ∀ y, HasDerivAt (fun y => s * y + c) s y := fun y =>
    (((hasDerivAt_id' y).const_mul s).add_const c).congr_deriv (by ring)
  refine ⟨fun y => s * d (s * y + c), ?_, rfl, ?_⟩
  · filter_upwards [(hl x).continuousAt.eventually h1] with y hy
    exact (HasDerivAt.comp y hy (hl y)).congr_deriv (by ring)
  · exact ((HasDerivAt.comp x h2 (hl x)).const_mul s).congr_deriv (by ring)

/-- the angular factor of `q1` and `q2` -/
theorem angFactor_twice (b s th : ℝ) :
    TwiceAt (fun y => (y - b) ^ 2 * pPoly (s * y + (1 - s * b))) th
      (2 * (th - b) * pPoly (s * (th - b) + 1) + (th - b) ^ 2 * (s * (30 * (s * (th - b) + 1) ^ 2 - 60 * (s * (th - b) + 1) ^ 3 + 30 * (s * (th - b) + 1) ^ 4)))
      (2 * pPoly (s * (th - b) + 1) + 2 * (2 * (th - b) * (s * (30 * (s * (th - b) + 1) ^ 2 - 60 * (s * (th - b) + 1) ^ 3 + 30 * (s * (th - b) + 1) ^ 4)))
        + (th - b) ^ 2 * (s ^ 2 * (60 * (s * (th - b) + 1) - 180 * (s * (th - b) + 1) ^ 2 + 120 * (s * (th - b) + 1) ^ 3))) := by
  have e : s * th + (1 - s * b) = s * (th - b) + 1 := by ring
  have h1 : TwiceAt (fun y => (y - b) ^ 2) th (2 * (th - b)) 2 :=
    (TwiceAt.comp_affine (φ := fun y => y ^ 2) 1 (-b) (TwiceAt.sq (1 * th + -b))).congr (fun y => by ring) (by ring) (by ring)
  have h2 := TwiceAt.comp_affine s (1 - s * b) (pPoly_twice (s * th + (1 - s * b)))
  refine (h1.mul h2).congr (fun y => rfl) ?_ ?_ <;> simp only [e]

/-- second angular derivative of `q` at both sides, and its values there -/
theorem zQ_th (k a : ℝ) (ha : a ≠ 2 * π) (g : ℝ → ℝ → ℝ) (r : ℝ) :
    zQ k a g r a = 0 ∧ zQ k a g r (2 * π) = 0 ∧
    (∀ th, ∃ d1 d2, TwiceAt (zQ k a g r) th d1 d2) ∧
    TwiceAt (zQ k a g r) a 0 (r ^ 2 * zF0 k g r a) ∧ TwiceAt (zQ k a g r) (2 * π) 0 (r ^ 2 * zF0 k g r (2 * π)) := by
  have hL : 2 * π - a ≠ 0 := fun h => ha (by linarith)
  have key : ∀ th, TwiceAt (zQ k a g r) th _ _ := fun th =>
    (((angFactor_twice a (-1 / (2 * π - a)) th).const_mul (r ^ 2 / 2 * zF0 k g r a)).add
      ((angFactor_twice (2 * π) (1 / (2 * π - a)) th).const_mul (r ^ 2 / 2 * zF0 k g r (2 * π)))).congr (ψ := zQ k a g r)
      (fun y => by
        simp only [zQ, zQ1, zQ2]
        rw [show (a - y) / (2 * π - a) + 1 = -1 / (2 * π - a) * y + (1 - -1 / (2 * π - a) * a) by field_simp; ring,
          show (y - 2 * π) / (2 * π - a) + 1 = 1 / (2 * π - a) * y + (1 - 1 / (2 * π - a) * (2 * π)) by field_simp; ring]
        ring) rfl rfl
  have e1 : (-1 / (2 * π - a)) * (2 * π - a) + 1 = 0 := by field_simp; ring
  have e2 : (1 / (2 * π - a)) * (a - 2 * π) + 1 = 0 := by field_simp; ring
  refine ⟨?_, ?_, fun th => ⟨_, _, key th⟩, ?_, ?_⟩
  · simp only [zQ, zQ1, zQ2]
    rw [show (a - 2 * π) / (2 * π - a) + 1 = 0 by field_simp; ring]
    simp [pPoly]
  · simp only [zQ, zQ1, zQ2]
    rw [show (a - 2 * π) / (2 * π - a) + 1 = 0 by field_simp; ring]
    simp [pPoly]
  · refine (key a).congr (fun _ => rfl) ?_ ?_
    · rw [e2]; simp [pPoly]
    · rw [e2]; simp only [sub_self, pPoly]; ring
  · refine (key (2 * π)).congr (fun _ => rfl) ?_ ?_
    · rw [e1]; simp [pPoly]
    · rw [e1]; simp only [sub_self, pPoly]; ring

/-- **C51** `q`, its radial derivatives and its angular derivative vanish on both sides of the wedge. -/
theorem C51_q (k a : ℝ) (ha : a ≠ 2 * π) (g : ℝ → ℝ → ℝ) (r : ℝ) {th : ℝ} (hth : th = a ∨ th = 2 * π) :
    zQ k a g r th = 0 ∧ HasDerivAt (fun r => zQ k a g r th) 0 r ∧ HasDerivAt (zQ k a g r) 0 th := by
  have h0 : ∀ r, zQ k a g r th = 0 := by
    intro r
    rcases hth with rfl | rfl
    · exact (zQ_th k _ ha g r).1
    · exact (zQ_th k a ha g r).2.1
  refine ⟨h0 r, ?_, ?_⟩
  · rw [show (fun r => zQ k a g r th) = fun _ => 0 from funext h0]
    exact hasDerivAt_const _ _
  · rcases hth with rfl | rfl
    · obtain ⟨d, h1, h2, -⟩ := (zQ_th k _ ha g r).2.2.2.1
      exact h2 ▸ h1.self_of_nhds
    · obtain ⟨d, h1, h2, -⟩ := (zQ_th k a ha g r).2.2.2.2
      exact h2 ▸ h1.self_of_nhds

/-- **C51** for every `g`, the source `f1` is zero on both sides of the wedge. -/
theorem C51_f1 (k a : ℝ) (ha : a ≠ 2 * π) (g : ℝ → ℝ → ℝ) {r : ℝ} (hr : r ≠ 0) :
    zF1 k a g r a = 0 ∧ zF1 k a g r (2 * π) = 0 := by
  have h0 : (∀ r, zQ k a g r a = 0) ∧ ∀ r, zQ k a g r (2 * π) = 0 :=
    ⟨fun r => (zQ_th k a ha g r).1, fun r => (zQ_th k a ha g r).2.1⟩
  have hr2 : r ^ 2 ≠ 0 := pow_ne_zero 2 hr
  constructor
  · simp only [zF1, helmOp, h0.1, (zQ_th k a ha g r).2.2.2.1.deriv2_eq]
    rw [mul_div_cancel_left₀ _ hr2]
    simp
  · simp only [zF1, helmOp, h0.2, (zQ_th k a ha g r).2.2.2.2.deriv2_eq]
    rw [mul_div_cancel_left₀ _ hr2]
    simp

/-- **C51** the function handed to the ODE method is zero on both sides for every radius, also at the tip. -/
theorem C51_eval_f1 (k a : ℝ) (ha : a ≠ 2 * π) (g : ℝ → ℝ → ℝ) (r : ℝ) :
    myLambdify (zF1 k a g) r a = 0 ∧ myLambdify (zF1 k a g) r (2 * π) = 0 := by
  simp only [myLambdify]
  by_cases hr : r = 0
  · simp [hr]
  · simpa [hr] using C51_f1 k a ha g hr

/-- **C51** what the construction is for: if `v` solves the Helmholtz equation and agrees with `g` on the sides, then
`z1 = v - (g + q)` solves it with source `f1` and vanishes on the sides.  Needed smoothness: `g` twice differentiable at the
point, and its residual `f0` twice differentiable along both sides. -/
theorem C51_z1 (k a : ℝ) (ha : a ≠ 2 * π) (g v : ℝ → ℝ → ℝ) {r th : ℝ} (hv : HelmholtzAt k v 0 r th)
    {G : ℝ} (hg : HelmholtzAt k g G r th) {c1 c2 e1 e2 : ℝ} (h1 : TwiceAt (fun ρ => zF0 k g ρ a) r c1 c2)
    (h2 : TwiceAt (fun ρ => zF0 k g ρ (2 * π)) r e1 e2) :
    HelmholtzAt k (fun r th => v r th - (g r th + zQ k a g r th)) (zF1 k a g r th) r th := by
  obtain ⟨t1, t2, ht⟩ := (zQ_th k a ha g r).2.2.1 th
  have hq : TwiceAt (fun ρ => zQ k a g ρ th) r _ _ :=
    ((((TwiceAt.sq r).mul h1).mul_const (1 / 2 * (th - a) ^ 2 * pPoly ((a - th) / (2 * π - a) + 1))).add
      (((TwiceAt.sq r).mul h2).mul_const (1 / 2 * (th - 2 * π) ^ 2 * pPoly ((th - 2 * π) / (2 * π - a) + 1)))).congr
      (ψ := fun ρ => zQ k a g ρ th) (fun y => by simp only [zQ, zQ1, zQ2]; ring) rfl rfl
  have hQ : HelmholtzAt k (zQ k a g) (helmOp k (zQ k a g) r th) r th := HelmholtzAt.of_twice hq ht
  have := HelmholtzAt.sub hv (HelmholtzAt.add hg hQ)
  have e : zF1 k a g r th = 0 - (G + helmOp k (zQ k a g) r th) := by
    simp only [zF1, zF0, HelmholtzAt.helmOp_eq hg]
    ring
  rw [e]
  exact this

/-- `z1` vanishes on the sides when `v` agrees with `g` there -/
theorem C51_z1_sides (k a : ℝ) (ha : a ≠ 2 * π) (g v : ℝ → ℝ → ℝ) (r : ℝ) {th : ℝ} (hth : th = a ∨ th = 2 * π)
    (h : v r th = g r th) : v r th - (g r th + zQ k a g r th) = 0 := by
  rw [(C51_q k a ha g r hth).1, h]; ring

/-- C51: `g = r² th` with `k = 1`; `f0 = -(4 th + r² th)`, which is not zero on the sides, while `f1` is -/
example : zF0 1 (fun r th => r ^ 2 * th) 1 (2 * π) ≠ 0 ∧ zF1 1 (π / 4) (fun r th => r ^ 2 * th) 1 (2 * π) = 0 := by
  refine ⟨?_, (C51_f1 1 (π / 4) (by have := pi_pos; intro h; linarith) _ one_ne_zero).2⟩
  have h : HelmholtzAt 1 (fun r th => r ^ 2 * th) (2 * (2 * π) + 2 * 1 * (2 * π) / 1 + 1 ^ 2 * 0 / 1 ^ 2 + 1 ^ 2 * (1 ^ 2 * (2 * π))) 1 (2 * π) :=
    ⟨_, _, _, _, (TwiceAt.sq 1).mul_const _,
      (TwiceAt.of_forall (d := fun _ => 1) (e := fun _ => 0) (fun y => hasDerivAt_id' y) (fun y => hasDerivAt_const _ _) _).const_mul _, rfl⟩
  simp only [zF0, HelmholtzAt.helmOp_eq h]
  have := pi_pos
  intro h
  linarith

end Pot
