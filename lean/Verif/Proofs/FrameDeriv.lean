import Verif.Proofs.Frame

/-! # Derivatives of Cauchy data along a curve, in the moving frame -/

namespace Pot
open Spec Filter Topology

section
variable {Ω : Set (ℝ × ℝ)} {U : ℕ → ℕ → ℝ × ℝ → ℂ} {I : Set ℝ} {x y t1 t2 n1 n2 κ : ℝ → ℝ} {s : ℝ}

/-- the multilinear forms `D^{m+l}U[T^m, N^l]` that occur -/
noncomputable def f2 (A B C : ℂ) (a b c d : ℝ) : ℂ := a * c * A + (a * d + b * c) * B + b * d * C

noncomputable def f3 (A B C D : ℂ) (a b c d : ℝ) : ℂ :=
  a ^ 2 * c * A + (a ^ 2 * d + 2 * a * b * c) * B + (2 * a * b * d + b ^ 2 * c) * C + b ^ 2 * d * D

noncomputable def f4 (A B C D E : ℂ) (a b : ℝ) : ℂ :=
  a ^ 4 * A + 4 * a ^ 3 * b * B + 6 * a ^ 2 * b ^ 2 * C + 4 * a * b ^ 3 * D + b ^ 4 * E

/-- second and third derivatives of `U` at `p` -/
noncomputable def g2 (U : ℕ → ℕ → ℝ × ℝ → ℂ) (p : ℝ × ℝ) (a b c d : ℝ) : ℂ := f2 (U 2 0 p) (U 1 1 p) (U 0 2 p) a b c d
noncomputable def g3 (U : ℕ → ℕ → ℝ × ℝ → ℂ) (p : ℝ × ℝ) (a b c d : ℝ) : ℂ :=
  f3 (U 3 0 p) (U 2 1 p) (U 1 2 p) (U 0 3 p) a b c d
noncomputable def g4 (U : ℕ → ℕ → ℝ × ℝ → ℂ) (p : ℝ × ℝ) (a b : ℝ) : ℂ :=
  f4 (U 4 0 p) (U 3 1 p) (U 2 2 p) (U 1 3 p) (U 0 4 p) a b

variable (hU : JetOn Ω 4 U) (fr : Frame I x y t1 t2 n1 n2 κ) (hin : ∀ s ∈ I, (x s, y s) ∈ Ω) (hs : s ∈ I)

include hU fr hin hs

theorem dW00 : HasDerivAt (fun s => U 0 0 (x s, y s)) (dir1 U (t1 s) (t2 s) (x s, y s)) s :=
  JetOn.along hU (i := 0) (j := 0) (by norm_num) (fr.dx s hs) (fr.dy s hs) (hin s hs)

theorem dW10 : HasDerivAt (fun s => dir1 U (t1 s) (t2 s) (x s, y s))
    (g2 U (x s, y s) (t1 s) (t2 s) (t1 s) (t2 s) + κ s * dir1 U (n1 s) (n2 s) (x s, y s)) s := by
  have h10 := JetOn.along hU (i := 1) (j := 0) (by norm_num) (fr.dx s hs) (fr.dy s hs) (hin s hs)
  have h01 := JetOn.along hU (i := 0) (j := 1) (by norm_num) (fr.dx s hs) (fr.dy s hs) (hin s hs)
  unfold dir1 g2 f2
  refine HasDerivAt.congr_deriv (((fr.dt1 s hs).ofReal_comp.fun_mul h10).fun_add
    ((fr.dt2 s hs).ofReal_comp.fun_mul h01)) ?_
  push_cast; ring

theorem dW01 : HasDerivAt (fun s => dir1 U (n1 s) (n2 s) (x s, y s))
    (g2 U (x s, y s) (t1 s) (t2 s) (n1 s) (n2 s) - κ s * dir1 U (t1 s) (t2 s) (x s, y s)) s := by
  have h10 := JetOn.along hU (i := 1) (j := 0) (by norm_num) (fr.dx s hs) (fr.dy s hs) (hin s hs)
  have h01 := JetOn.along hU (i := 0) (j := 1) (by norm_num) (fr.dx s hs) (fr.dy s hs) (hin s hs)
  unfold dir1 g2 f2
  refine HasDerivAt.congr_deriv (((fr.dn1 s hs).ofReal_comp.fun_mul h10).fun_add
    ((fr.dn2 s hs).ofReal_comp.fun_mul h01)) ?_
  push_cast; ring

theorem dW20 : HasDerivAt (fun s => g2 U (x s, y s) (t1 s) (t2 s) (t1 s) (t2 s))
    (g3 U (x s, y s) (t1 s) (t2 s) (t1 s) (t2 s) + 2 * κ s * g2 U (x s, y s) (t1 s) (t2 s) (n1 s) (n2 s)) s := by
  have h20 := JetOn.along hU (i := 2) (j := 0) (by norm_num) (fr.dx s hs) (fr.dy s hs) (hin s hs)
  have h11 := JetOn.along hU (i := 1) (j := 1) (by norm_num) (fr.dx s hs) (fr.dy s hs) (hin s hs)
  have h02 := JetOn.along hU (i := 0) (j := 2) (by norm_num) (fr.dx s hs) (fr.dy s hs) (hin s hs)
  have T1 := (fr.dt1 s hs).ofReal_comp
  have T2 := (fr.dt2 s hs).ofReal_comp
  unfold g2 g3 f2 f3
  refine HasDerivAt.congr_deriv ((((T1.fun_mul T1).fun_mul h20).fun_add
    (((T1.fun_mul T2).fun_add (T2.fun_mul T1)).fun_mul h11)).fun_add ((T2.fun_mul T2).fun_mul h02)) ?_
  push_cast; ring

theorem dW11 : HasDerivAt (fun s => g2 U (x s, y s) (t1 s) (t2 s) (n1 s) (n2 s))
    (g3 U (x s, y s) (t1 s) (t2 s) (n1 s) (n2 s) + κ s * g2 U (x s, y s) (n1 s) (n2 s) (n1 s) (n2 s) -
      κ s * g2 U (x s, y s) (t1 s) (t2 s) (t1 s) (t2 s)) s := by
  have h20 := JetOn.along hU (i := 2) (j := 0) (by norm_num) (fr.dx s hs) (fr.dy s hs) (hin s hs)
  have h11 := JetOn.along hU (i := 1) (j := 1) (by norm_num) (fr.dx s hs) (fr.dy s hs) (hin s hs)
  have h02 := JetOn.along hU (i := 0) (j := 2) (by norm_num) (fr.dx s hs) (fr.dy s hs) (hin s hs)
  have T1 := (fr.dt1 s hs).ofReal_comp
  have T2 := (fr.dt2 s hs).ofReal_comp
  have N1 := (fr.dn1 s hs).ofReal_comp
  have N2 := (fr.dn2 s hs).ofReal_comp
  unfold g2 g3 f2 f3
  refine HasDerivAt.congr_deriv ((((T1.fun_mul N1).fun_mul h20).fun_add
    (((T1.fun_mul N2).fun_add (T2.fun_mul N1)).fun_mul h11)).fun_add ((T2.fun_mul N2).fun_mul h02)) ?_
  push_cast; ring

theorem dW30 : HasDerivAt (fun s => g3 U (x s, y s) (t1 s) (t2 s) (t1 s) (t2 s))
    (g4 U (x s, y s) (t1 s) (t2 s) + 3 * κ s * g3 U (x s, y s) (t1 s) (t2 s) (n1 s) (n2 s)) s := by
  have h30 := JetOn.along hU (i := 3) (j := 0) (by norm_num) (fr.dx s hs) (fr.dy s hs) (hin s hs)
  have h21 := JetOn.along hU (i := 2) (j := 1) (by norm_num) (fr.dx s hs) (fr.dy s hs) (hin s hs)
  have h12 := JetOn.along hU (i := 1) (j := 2) (by norm_num) (fr.dx s hs) (fr.dy s hs) (hin s hs)
  have h03 := JetOn.along hU (i := 0) (j := 3) (by norm_num) (fr.dx s hs) (fr.dy s hs) (hin s hs)
  have T1 := (fr.dt1 s hs).ofReal_comp
  have T2 := (fr.dt2 s hs).ofReal_comp
  unfold g3 g4 f3 f4
  refine HasDerivAt.congr_deriv ((((((T1.fun_pow 2).fun_mul T1).fun_mul h30).fun_add
    ((((T1.fun_pow 2).fun_mul T2).fun_add (((T1.const_mul 2).fun_mul T2).fun_mul T1)).fun_mul h21)).fun_add
    (((((T1.const_mul 2).fun_mul T2).fun_mul T2).fun_add ((T2.fun_pow 2).fun_mul T1)).fun_mul h12)).fun_add
    (((T2.fun_pow 2).fun_mul T2).fun_mul h03)) ?_
  push_cast; ring

end

/-- the derivatives of the trace and of the normal derivative along the curve -/
theorem frame_data {Ω : Set (ℝ × ℝ)} {U : ℕ → ℕ → ℝ × ℝ → ℂ} {I : Set ℝ} {x y t1 t2 n1 n2 : ℝ → ℝ} {κ : ℕ → ℝ → ℝ}
    (hU : JetOn Ω 4 U) (fr : Frame I x y t1 t2 n1 n2 (κ 0)) (hκ : DerivFam 2 I κ)
    (hin : ∀ s ∈ I, (x s, y s) ∈ Ω) {ξ0 ξ1 : ℕ → ℝ → ℂ} (hξ0 : DerivFam 4 I ξ0) (hξ1 : DerivFam 2 I ξ1)
    (e0 : ∀ s ∈ I, ξ0 0 s = U 0 0 (x s, y s)) (e1 : ∀ s ∈ I, ξ1 0 s = dir1 U (n1 s) (n2 s) (x s, y s))
    {s : ℝ} (hs : s ∈ I) :
    let p := (x s, y s)
    let W10 := dir1 U (t1 s) (t2 s) p
    let W01 := dir1 U (n1 s) (n2 s) p
    let W20 := g2 U p (t1 s) (t2 s) (t1 s) (t2 s)
    let W11 := g2 U p (t1 s) (t2 s) (n1 s) (n2 s)
    let W02 := g2 U p (n1 s) (n2 s) (n1 s) (n2 s)
    let W21 := g3 U p (t1 s) (t2 s) (n1 s) (n2 s)
    let W40 := g4 U p (t1 s) (t2 s)
    let K := (κ 0 s : ℂ)
    let K1 := (κ 1 s : ℂ)
    let K2 := (κ 2 s : ℂ)
    ξ0 1 s = W10 ∧ ξ0 2 s = W20 + K * W01 ∧ ξ1 1 s = W11 - K * W10 ∧
    ξ1 2 s = W21 + K * W02 - 2 * K * W20 - K1 * W10 - K ^ 2 * W01 ∧
    ξ0 4 s = W40 + 6 * K * W21 + 4 * K1 * W11 + 3 * K ^ 2 * W02 - 4 * K ^ 2 * W20 + K2 * W01 - 3 * K * K1 * W10 -
      K ^ 3 * W01 := by
  have hI := fr.isOpen
  have k0 : ∀ s ∈ I, HasDerivAt (fun s => (κ 0 s : ℂ)) (κ 1 s) s := fun s hs => (hκ 0 (by norm_num) s hs).ofReal_comp
  have k1 : ∀ s ∈ I, HasDerivAt (fun s => (κ 1 s : ℂ)) (κ 2 s) s := fun s hs => (hκ 1 (by norm_num) s hs).ofReal_comp
  have a1 : ∀ s ∈ I, ξ0 1 s = dir1 U (t1 s) (t2 s) (x s, y s) := fun s hs =>
    deriv_unique_on hI hs e0 (hξ0 0 (by norm_num) s hs) (dW00 hU fr hin hs)
  have a2 : ∀ s ∈ I, ξ0 2 s = g2 U (x s, y s) (t1 s) (t2 s) (t1 s) (t2 s) +
      κ 0 s * dir1 U (n1 s) (n2 s) (x s, y s) := fun s hs =>
    deriv_unique_on hI hs a1 (hξ0 1 (by norm_num) s hs) (dW10 hU fr hin hs)
  have a3 : ∀ s ∈ I, ξ0 3 s = g3 U (x s, y s) (t1 s) (t2 s) (t1 s) (t2 s) +
      3 * κ 0 s * g2 U (x s, y s) (t1 s) (t2 s) (n1 s) (n2 s) + κ 1 s * dir1 U (n1 s) (n2 s) (x s, y s) -
      (κ 0 s : ℂ) ^ 2 * dir1 U (t1 s) (t2 s) (x s, y s) := fun s hs => by
    rw [deriv_unique_on hI hs a2 (hξ0 2 (by norm_num) s hs)
      ((dW20 hU fr hin hs).fun_add ((k0 s hs).fun_mul (dW01 hU fr hin hs)))]
    ring
  have b1 : ∀ s ∈ I, ξ1 1 s = g2 U (x s, y s) (t1 s) (t2 s) (n1 s) (n2 s) -
      κ 0 s * dir1 U (t1 s) (t2 s) (x s, y s) := fun s hs =>
    deriv_unique_on hI hs e1 (hξ1 0 (by norm_num) s hs) (dW01 hU fr hin hs)
  refine ⟨a1 s hs, a2 s hs, b1 s hs, ?_, ?_⟩
  · rw [deriv_unique_on hI hs b1 (hξ1 1 (by norm_num) s hs)
      ((dW11 hU fr hin hs).fun_sub ((k0 s hs).fun_mul (dW10 hU fr hin hs)))]
    ring
  · rw [deriv_unique_on hI hs a3 (hξ0 3 (by norm_num) s hs)
      ((((dW30 hU fr hin hs).fun_add (((k0 s hs).const_mul 3).fun_mul (dW11 hU fr hin hs))).fun_add
        ((k1 s hs).fun_mul (dW01 hU fr hin hs))).fun_sub (((k0 s hs).fun_pow 2).fun_mul (dW10 hU fr hin hs)))]
    push_cast
    ring

/-- rows of an orthonormal frame -/
theorem frame_rows {a b c d : ℝ} (h1 : a ^ 2 + b ^ 2 = 1) (h2 : c ^ 2 + d ^ 2 = 1) (h3 : a * c + b * d = 0) :
    a ^ 2 + c ^ 2 = 1 ∧ b ^ 2 + d ^ 2 = 1 ∧ a * b + c * d = 0 := by
  have hc : c = (c * b - d * a) * b := by linear_combination (-c) * h1 + a * h3
  have hd : d = -(c * b - d * a) * a := by linear_combination (-d) * h1 + b * h3
  set m := c * b - d * a with hm
  have hm2 : m ^ 2 = 1 := by
    have : c ^ 2 + d ^ 2 = m ^ 2 * (a ^ 2 + b ^ 2) := by rw [hc, hd]; ring
    rw [h2, h1] at this; linarith
  rw [hc, hd]
  refine ⟨?_, ?_, ?_⟩
  · linear_combination b ^ 2 * hm2 + h1
  · linear_combination a ^ 2 * hm2 + h1
  · linear_combination (-a * b) * hm2

/-- the equation in the rotated frame -/
theorem frame_pde {Ω : Set (ℝ × ℝ)} {U : ℕ → ℕ → ℝ × ℝ → ℂ} {k : ℝ} {f : ℝ × ℝ → ℂ} (h : Helmholtz Ω k U f)
    {p : ℝ × ℝ} (hp : p ∈ Ω) {a b c d : ℝ} (h1 : a ^ 2 + b ^ 2 = 1) (h2 : c ^ 2 + d ^ 2 = 1) (h3 : a * c + b * d = 0) :
    g2 U p a b a b + g2 U p c d c d + (k : ℂ) ^ 2 * U 0 0 p = f p := by
  obtain ⟨r1, r2, r3⟩ := frame_rows h1 h2 h3
  have r1 : (a : ℂ) ^ 2 + (c : ℂ) ^ 2 = 1 := by exact_mod_cast r1
  have r2 : (b : ℂ) ^ 2 + (d : ℂ) ^ 2 = 1 := by exact_mod_cast r2
  have r3 : (a : ℂ) * b + c * d = 0 := by exact_mod_cast r3
  rw [← h p hp]
  unfold g2 f2
  linear_combination U 2 0 p * r1 + U 0 2 p * r2 + 2 * U 1 1 p * r3

/-- the degree-four Taylor coefficients along the normal, from the equation and the Cauchy data -/
theorem frame_taylor {Ω : Set (ℝ × ℝ)} {U F : ℕ → ℕ → ℝ × ℝ → ℂ} {k : ℝ} (hU : JetOn Ω 4 U) (hF : JetOn Ω 2 F)
    (hpde : Helmholtz Ω k U (F 0 0)) {p : ℝ × ℝ} (hp : p ∈ Ω) {a b c d : ℝ} (h1 : a ^ 2 + b ^ 2 = 1)
    (h2 : c ^ 2 + d ^ 2 = 1) (h3 : a * c + b * d = 0) :
    lineFam U p c d 1 0 = dir1 U c d p ∧
    lineFam U p c d 2 0 = F 0 0 p - (k : ℂ) ^ 2 * U 0 0 p - g2 U p a b a b ∧
    g2 U p c d c d = F 0 0 p - (k : ℂ) ^ 2 * U 0 0 p - g2 U p a b a b ∧
    lineFam U p c d 3 0 = dir1 F c d p - (k : ℂ) ^ 2 * dir1 U c d p - g3 U p a b c d ∧
    lineFam U p c d 4 0 = dir2 F c d p - (k : ℂ) ^ 2 * g2 U p c d c d -
      (dir2 F a b p - (k : ℂ) ^ 2 * g2 U p a b a b - g4 U p a b) := by
  have e0 := frame_pde hpde hp h1 h2 h3
  have hN := Helmholtz.dirJet (n := 1) (m := 1) hU hF hpde c d
  have hT := Helmholtz.dirJet (n := 1) (m := 1) hU hF hpde a b
  have jN := JetOn.dirJet (n := 3) hU c d
  have jT := JetOn.dirJet (n := 3) hU a b
  have fN := JetOn.dirJet (n := 1) hF c d
  have fT := JetOn.dirJet (n := 1) hF a b
  have e1 := frame_pde hN hp h1 h2 h3
  have e2 := frame_pde (Helmholtz.dirJet (n := 0) (m := 0) jN fN hN c d) hp h1 h2 h3
  have e3 := frame_pde (Helmholtz.dirJet (n := 0) (m := 0) jT fT hT a b) hp h1 h2 h3
  simp only [lineFam, Function.iterate_succ, Function.iterate_zero, Function.comp, id, move_zero, dirJet]
  simp only [dirJet, g2, f2] at e1 e2 e3
  refine ⟨by unfold dir1; ring, ?_, ?_, ?_, ?_⟩
  · rw [← e0]; unfold g2 f2; ring
  · rw [← e0]; ring
  · unfold dir1 g3 f3
    linear_combination e1
  · unfold dir2 g2 g4 f2 f4
    linear_combination e2 - e3

end Pot
