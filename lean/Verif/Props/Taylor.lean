import Verif.Proofs.JetExamples
import Verif.Proofs.FrameDeriv
import Verif.Proofs.JetOnExist
import Verif.Proofs.PolarFrame

/-!
# Properties C27–C30: the equation-based extension is the Taylor polynomial of the solution
-/

namespace Pot
open Spec Real

/-- **C27**, **C28** together: for every solution `u` of `u_xx + u_yy + k² u = f` near a curve and arbitrary Cauchy
data, `extend_arbitrary` fed with the Cauchy data plus `inhomo_extend_arbitrary` fed with the derivatives of the
source is the Taylor polynomial of degree 4 of `u` along the normal. -/
theorem C27_C28_sum {Ω : Set (ℝ × ℝ)} {U F : ℕ → ℕ → ℝ × ℝ → ℂ} {I : Set ℝ} {x y t1 t2 n1 n2 : ℝ → ℝ}
    {κ : ℕ → ℝ → ℝ} {k : ℝ} (hU : JetOn Ω 4 U) (hF : JetOn Ω 2 F) (hpde : Helmholtz Ω k U (F 0 0))
    (fr : Frame I x y t1 t2 n1 n2 (κ 0)) (hκ : DerivFam 2 I κ) (hin : ∀ s ∈ I, (x s, y s) ∈ Ω)
    {ξ0 ξ1 φ : ℕ → ℝ → ℂ} (hξ0 : DerivFam 4 I ξ0) (hξ1 : DerivFam 2 I ξ1) (hφ : DerivFam 2 I φ)
    (e0 : ∀ s ∈ I, ξ0 0 s = U 0 0 (x s, y s)) (e1 : ∀ s ∈ I, ξ1 0 s = dir1 U (n1 s) (n2 s) (x s, y s))
    (ef : ∀ s ∈ I, φ 0 s = F 0 0 (x s, y s)) {s : ℝ} (hs : s ∈ I) (n : ℝ) :
    extendArbitrary k
      { n := n, curv := κ 0 s, dCurvS := κ 1 s, d2CurvS := κ 2 s, xi0 := ξ0 0 s, xi1 := ξ1 0 s, dXi0 := ξ0 1 s,
        dXi1 := ξ1 1 s, d2Xi0 := ξ0 2 s, d2Xi1 := ξ1 2 s, d4Xi0 := ξ0 4 s } +
    inhomoExtendArbitrary k
      { n := n, f := F 0 0 (x s, y s), dFn := dir1 F (n1 s) (n2 s) (x s, y s),
        d2Fn := dir2 F (n1 s) (n2 s) (x s, y s), d2Fs := φ 2 s, curv := κ 0 s } =
      taylorPoly 4 (fun t => U 0 0 (move (x s, y s) (n1 s) (n2 s) t)) n := by
  have hp := hin s hs
  obtain ⟨a1, a2, b1, b2, a4⟩ := frame_data hU fr hκ hin hξ0 hξ1 e0 e1 hs
  obtain ⟨l1, l2, l2', l3, l4⟩ := frame_taylor hU hF hpde hp (fr.unitT s hs) (fr.unitN s hs) (fr.orth s hs)
  have hI := fr.isOpen
  -- the second arclength derivative of the source
  have f1 : ∀ s ∈ I, φ 1 s = dir1 F (t1 s) (t2 s) (x s, y s) := fun s hs =>
    deriv_unique_on hI hs ef (hφ 0 (by norm_num) s hs)
      (JetOn.along hF (i := 0) (j := 0) (by norm_num) (fr.dx s hs) (fr.dy s hs) (hin s hs))
  have f2 : φ 2 s = dir2 F (t1 s) (t2 s) (x s, y s) + κ 0 s * dir1 F (n1 s) (n2 s) (x s, y s) := by
    have h10 := JetOn.along hF (i := 1) (j := 0) (by norm_num) (fr.dx s hs) (fr.dy s hs) (hin s hs)
    have h01 := JetOn.along hF (i := 0) (j := 1) (by norm_num) (fr.dx s hs) (fr.dy s hs) (hin s hs)
    rw [deriv_unique_on hI hs f1 (hφ 1 (by norm_num) s hs) (((fr.dt1 s hs).ofReal_comp.fun_mul h10).fun_add
      ((fr.dt2 s hs).ofReal_comp.fun_mul h01))]
    unfold dir1 dir2
    push_cast; ring
  rw [taylorPoly_line hU hp, l1, l2, l3, l4, taylorSum5]
  unfold extendArbitrary inhomoExtendArbitrary
  simp only [arcDerivs, inhomoDerivs]
  rw [taylorSum5, taylorSum5, e0 s hs, e1 s hs, a1, a2, b1, b2, a4, f2, l2']
  ring

/-- the zero jet -/
theorem jetOn_zero {Ω : Set (ℝ × ℝ)} (hΩ : IsOpen Ω) (n : ℕ) : JetOn Ω n (fun _ _ _ => 0) := by
  refine ⟨hΩ, fun i j _ p _ => (hasFDerivAt_const (0 : ℂ) p).congr_fderiv ?_⟩
  ext <;> simp [grad2]

theorem JetOn.mono {Ω : Set (ℝ × ℝ)} {U : ℕ → ℕ → ℝ × ℝ → ℂ} {m n : ℕ} (h : JetOn Ω n U) (hmn : m ≤ n) : JetOn Ω m U :=
  ⟨h.isOpen, fun i j hij => h.diff i j (by omega)⟩

theorem inhomoExtendArbitrary_zero (k n κ : ℝ) :
    inhomoExtendArbitrary k { n := n, f := 0, dFn := 0, d2Fn := 0, d2Fs := 0, curv := κ } = 0 := by
  unfold inhomoExtendArbitrary
  simp only [inhomoDerivs]
  rw [taylorSum5]; simp

theorem derivFam_zero (n : ℕ) (I : Set ℝ) : DerivFam n I (fun _ _ => (0 : ℂ)) := fun _ _ s _ => hasDerivAt_const s 0

/-- **C27** for every solution of the homogeneous Helmholtz equation near a curve, `extend_arbitrary` fed with its Cauchy
data is the degree-4 Taylor polynomial of the solution along the normal. -/
theorem C27_taylor {Ω : Set (ℝ × ℝ)} {U : ℕ → ℕ → ℝ × ℝ → ℂ} {I : Set ℝ} {x y t1 t2 n1 n2 : ℝ → ℝ}
    {κ : ℕ → ℝ → ℝ} {k : ℝ} (hU : JetOn Ω 4 U) (hpde : Helmholtz Ω k U fun _ => 0)
    (fr : Frame I x y t1 t2 n1 n2 (κ 0)) (hκ : DerivFam 2 I κ) (hin : ∀ s ∈ I, (x s, y s) ∈ Ω)
    {ξ0 ξ1 : ℕ → ℝ → ℂ} (hξ0 : DerivFam 4 I ξ0) (hξ1 : DerivFam 2 I ξ1)
    (e0 : ∀ s ∈ I, ξ0 0 s = U 0 0 (x s, y s)) (e1 : ∀ s ∈ I, ξ1 0 s = dir1 U (n1 s) (n2 s) (x s, y s))
    {s : ℝ} (hs : s ∈ I) (n : ℝ) :
    extendArbitrary k
      { n := n, curv := κ 0 s, dCurvS := κ 1 s, d2CurvS := κ 2 s, xi0 := ξ0 0 s, xi1 := ξ1 0 s, dXi0 := ξ0 1 s,
        dXi1 := ξ1 1 s, d2Xi0 := ξ0 2 s, d2Xi1 := ξ1 2 s, d4Xi0 := ξ0 4 s } =
      taylorPoly 4 (fun t => U 0 0 (move (x s, y s) (n1 s) (n2 s) t)) n := by
  have := C27_C28_sum hU (jetOn_zero hU.isOpen 2) hpde fr hκ hin hξ0 hξ1 (derivFam_zero 2 I) e0 e1 (fun _ _ => rfl) hs n
  simp only [dir1, dir2, mul_zero, add_zero] at this
  rw [inhomoExtendArbitrary_zero, add_zero] at this
  exact this

/-- **C27** the error of the extension is at most `M |n|^5 / 120`, where `M` bounds the fifth derivative of the
solution along the normal segment. -/
theorem C27_error {Ω : Set (ℝ × ℝ)} {U : ℕ → ℕ → ℝ × ℝ → ℂ} {I : Set ℝ} {x y t1 t2 n1 n2 : ℝ → ℝ}
    {κ : ℕ → ℝ → ℝ} {k : ℝ} (hU : JetOn Ω 5 U) (hpde : Helmholtz Ω k U fun _ => 0)
    (fr : Frame I x y t1 t2 n1 n2 (κ 0)) (hκ : DerivFam 2 I κ) (hin : ∀ s ∈ I, (x s, y s) ∈ Ω)
    {ξ0 ξ1 : ℕ → ℝ → ℂ} (hξ0 : DerivFam 4 I ξ0) (hξ1 : DerivFam 2 I ξ1)
    (e0 : ∀ s ∈ I, ξ0 0 s = U 0 0 (x s, y s)) (e1 : ∀ s ∈ I, ξ1 0 s = dir1 U (n1 s) (n2 s) (x s, y s))
    {s : ℝ} (hs : s ∈ I) {n M : ℝ}
    (hseg : ∀ t, |t| ≤ |n| → 0 ≤ t * n → move (x s, y s) (n1 s) (n2 s) t ∈ Ω)
    (hM : ∀ t, |t| ≤ |n| → 0 ≤ t * n →
      ‖iteratedDeriv 5 (fun t => U 0 0 (move (x s, y s) (n1 s) (n2 s) t)) t‖ ≤ M) :
    ‖U 0 0 (move (x s, y s) (n1 s) (n2 s) n) - extendArbitrary k
      { n := n, curv := κ 0 s, dCurvS := κ 1 s, d2CurvS := κ 2 s, xi0 := ξ0 0 s, xi1 := ξ1 0 s, dXi0 := ξ0 1 s,
        dXi1 := ξ1 1 s, d2Xi0 := ξ0 2 s, d2Xi1 := ξ1 2 s, d4Xi0 := ξ0 4 s }‖ ≤ M / 120 * |n| ^ 5 := by
  rw [C27_taylor (JetOn.mono hU (by norm_num)) hpde fr hκ hin hξ0 hξ1 e0 e1 hs n]
  exact line_remainder hU hseg hM

/-- **C28** for every solution of the inhomogeneous equation with zero Cauchy data on a curve,
`inhomo_extend_arbitrary` fed with the source is the degree-4 Taylor polynomial of the solution along the normal. -/
theorem C28_taylor {Ω : Set (ℝ × ℝ)} {U F : ℕ → ℕ → ℝ × ℝ → ℂ} {I : Set ℝ} {x y t1 t2 n1 n2 : ℝ → ℝ}
    {κ : ℕ → ℝ → ℝ} {k : ℝ} (hU : JetOn Ω 4 U) (hF : JetOn Ω 2 F) (hpde : Helmholtz Ω k U (F 0 0))
    (fr : Frame I x y t1 t2 n1 n2 (κ 0)) (hκ : DerivFam 2 I κ) (hin : ∀ s ∈ I, (x s, y s) ∈ Ω)
    {φ : ℕ → ℝ → ℂ} (hφ : DerivFam 2 I φ) (e0 : ∀ s ∈ I, U 0 0 (x s, y s) = 0)
    (e1 : ∀ s ∈ I, dir1 U (n1 s) (n2 s) (x s, y s) = 0) (ef : ∀ s ∈ I, φ 0 s = F 0 0 (x s, y s)) {s : ℝ} (hs : s ∈ I)
    (n : ℝ) :
    inhomoExtendArbitrary k
      { n := n, f := F 0 0 (x s, y s), dFn := dir1 F (n1 s) (n2 s) (x s, y s),
        d2Fn := dir2 F (n1 s) (n2 s) (x s, y s), d2Fs := φ 2 s, curv := κ 0 s } =
      taylorPoly 4 (fun t => U 0 0 (move (x s, y s) (n1 s) (n2 s) t)) n := by
  have := C27_C28_sum hU hF hpde fr hκ hin (derivFam_zero 4 I) (derivFam_zero 2 I) hφ (fun s hs => (e0 s hs).symm)
    (fun s hs => (e1 s hs).symm) ef hs n
  rw [← this]
  unfold extendArbitrary
  simp only [arcDerivs]
  rw [taylorSum5]
  simp

/-! ## Reparametrisation -/

/-- **C29** the arguments `extend_polar` passes on are the arclength derivatives of the data and of the curvature, for
every reparametrisation `θ(s)` (`θ i` its derivatives). -/
theorem C29_chain_rule {I J : Set ℝ} (hI : IsOpen I) {θ κ : ℕ → ℝ → ℝ} {φ0 φ1 : ℕ → ℝ → ℂ} (hθ : DerivFam 4 I θ)
    (hφ0 : DerivFam 4 J φ0) (hφ1 : DerivFam 2 J φ1) (hκ : DerivFam 2 J κ) (hmap : ∀ s ∈ I, θ 0 s ∈ J) {s : ℝ}
    (hs : s ∈ I) (n : ℝ) :
    let A := polarToArc
      { n := n, curv := κ 0 (θ 0 s), dCurvTh := κ 1 (θ 0 s), d2CurvTh := κ 2 (θ 0 s), dThs := θ 1 s, d2Ths := θ 2 s,
        d3Ths := θ 3 s, d4Ths := θ 4 s, xi0 := φ0 0 (θ 0 s), xi1 := φ1 0 (θ 0 s), dXi0 := φ0 1 (θ 0 s),
        dXi1 := φ1 1 (θ 0 s), d2Xi0 := φ0 2 (θ 0 s), d2Xi1 := φ1 2 (θ 0 s), d3Xi0 := φ0 3 (θ 0 s),
        d4Xi0 := φ0 4 (θ 0 s) }
    A.n = n ∧ A.curv = κ 0 (θ 0 s) ∧ A.xi0 = φ0 0 (θ 0 s) ∧ A.xi1 = φ1 0 (θ 0 s) ∧
    A.dXi0 = iteratedDeriv 1 (fun s => φ0 0 (θ 0 s)) s ∧ A.d2Xi0 = iteratedDeriv 2 (fun s => φ0 0 (θ 0 s)) s ∧
    A.d4Xi0 = iteratedDeriv 4 (fun s => φ0 0 (θ 0 s)) s ∧
    A.dXi1 = iteratedDeriv 1 (fun s => φ1 0 (θ 0 s)) s ∧ A.d2Xi1 = iteratedDeriv 2 (fun s => φ1 0 (θ 0 s)) s ∧
    A.dCurvS = iteratedDeriv 1 (fun s => κ 0 (θ 0 s)) s ∧ A.d2CurvS = iteratedDeriv 2 (fun s => κ 0 (θ 0 s)) s := by
  have hθ2 : DerivFam 2 I θ := fun i hi => hθ i (by omega)
  have h0 := DerivFam.iterated hI (compFam_deriv (by norm_num) hφ0 hθ hmap)
  have h1 := DerivFam.iterated hI (compFam_deriv (by norm_num) hφ1 hθ2 hmap)
  have hk := DerivFam.iterated hI (compFamR_deriv hκ hθ2 hmap)
  refine ⟨rfl, rfl, rfl, rfl, (h0 1 (by norm_num) s hs).symm, (h0 2 (by norm_num) s hs).symm, ?_,
    (h1 1 (by norm_num) s hs).symm, (h1 2 (by norm_num) s hs).symm, (hk 1 (by norm_num) s hs).symm,
    (hk 2 (by norm_num) s hs).symm⟩
  refine Eq.trans ?_ (h0 4 (by norm_num) s hs).symm
  simp only [polarToArc, compFam]
  ring

/-- derivatives of `P(r(θ(s)), θ(s))` -/
noncomputable def alongFam (P : ℕ → ℕ → ℝ × ℝ → ℂ) (ρ θ : ℕ → ℝ → ℝ) : ℕ → ℝ → ℂ
  | 0, s => P 0 0 (ρ 0 (θ 0 s), θ 0 s)
  | 1, s => (ρ 1 (θ 0 s) * θ 1 s : ℝ) * P 1 0 (ρ 0 (θ 0 s), θ 0 s) + θ 1 s * P 0 1 (ρ 0 (θ 0 s), θ 0 s)
  | 2, s => inhomoD2Fs
      { dFth := P 0 1 (ρ 0 (θ 0 s), θ 0 s), d2Fth := P 0 2 (ρ 0 (θ 0 s), θ 0 s), dFr := P 1 0 (ρ 0 (θ 0 s), θ 0 s),
        d2Fr := P 2 0 (ρ 0 (θ 0 s), θ 0 s), d2Frth := P 1 1 (ρ 0 (θ 0 s), θ 0 s), dThs := θ 1 s, d2Ths := θ 2 s,
        dRth := ρ 1 (θ 0 s), d2Rth := ρ 2 (θ 0 s) }
  | _ + 3, _ => 0

theorem alongFam_deriv {I J : Set ℝ} {Ω : Set (ℝ × ℝ)} {P : ℕ → ℕ → ℝ × ℝ → ℂ} {ρ θ : ℕ → ℝ → ℝ} (hP : JetOn Ω 2 P)
    (hρ : DerivFam 2 J ρ) (hθ : DerivFam 2 I θ) (hmap : ∀ s ∈ I, θ 0 s ∈ J) (hin : ∀ t ∈ J, (ρ 0 t, t) ∈ Ω) :
    DerivFam 2 I (alongFam P ρ θ) := by
  intro i hi s hs
  have t0 := hθ 0 (by norm_num) s hs
  have t1 := (hθ 1 (by norm_num) s hs)
  have r0 : HasDerivAt (fun s => ρ 0 (θ 0 s)) (ρ 1 (θ 0 s) * θ 1 s) s :=
    (hρ 0 (by norm_num) _ (hmap s hs)).comp s t0
  have r1 : HasDerivAt (fun s => ρ 1 (θ 0 s)) (ρ 2 (θ 0 s) * θ 1 s) s :=
    (hρ 1 (by norm_num) _ (hmap s hs)).comp s t0
  have a : ∀ i j, i + j < 2 → HasDerivAt (fun s => P i j (ρ 0 (θ 0 s), θ 0 s))
      ((ρ 1 (θ 0 s) * θ 1 s : ℝ) * P (i + 1) j (ρ 0 (θ 0 s), θ 0 s) + θ 1 s * P i (j + 1) (ρ 0 (θ 0 s), θ 0 s)) s :=
    fun i j hij => JetOn.along hP hij r0 t0 (hin _ (hmap s hs))
  obtain rfl | rfl : i = 0 ∨ i = 1 := by omega
  · exact a 0 0 (by norm_num)
  · refine (((r1.fun_mul t1).ofReal_comp.fun_mul (a 1 0 (by norm_num))).fun_add
      (t1.ofReal_comp.fun_mul (a 0 1 (by norm_num)))).congr_deriv ?_
    simp only [alongFam, inhomoD2Fs]
    push_cast
    ring

/-- **C30** `d2_f_s` of `inhomo_extend_polar` is the second derivative of `f(r(θ(s)), θ(s))` for every `f` (with polar
partial derivatives `P i j`), every curve `r` and every parametrisation `θ`. -/
theorem C30_chain_rule {I J : Set ℝ} (hI : IsOpen I) {Ω : Set (ℝ × ℝ)} {P : ℕ → ℕ → ℝ × ℝ → ℂ} {ρ θ : ℕ → ℝ → ℝ}
    (hP : JetOn Ω 2 P) (hρ : DerivFam 2 J ρ) (hθ : DerivFam 2 I θ) (hmap : ∀ s ∈ I, θ 0 s ∈ J)
    (hin : ∀ t ∈ J, (ρ 0 t, t) ∈ Ω) {s : ℝ} (hs : s ∈ I) (k n : ℝ) (f dFn d2Fn : ℂ) (κ : ℝ) :
    let q := (ρ 0 (θ 0 s), θ 0 s)
    inhomoExtendPolar k
      { dFth := P 0 1 q, d2Fth := P 0 2 q, dFr := P 1 0 q, d2Fr := P 2 0 q, d2Frth := P 1 1 q, dThs := θ 1 s,
        d2Ths := θ 2 s, dRth := ρ 1 (θ 0 s), d2Rth := ρ 2 (θ 0 s) } n f dFn d2Fn κ =
      inhomoExtendArbitrary k
        { n := n, f := f, dFn := dFn, d2Fn := d2Fn,
          d2Fs := iteratedDeriv 2 (fun s => P 0 0 (ρ 0 (θ 0 s), θ 0 s)) s, curv := κ } := by
  have := DerivFam.iterated hI (alongFam_deriv hP hρ hθ hmap hin) 2 le_rfl s hs
  simp only []
  unfold inhomoExtendPolar
  rw [show iteratedDeriv 2 (fun s => P 0 0 (ρ 0 (θ 0 s), θ 0 s)) s = alongFam P ρ θ 2 s from this]
  rfl

/-! ## The outer boundary -/

/-- the radius function and its first two derivatives -/
noncomputable def radFam (r : ℝ → ℝ) : ℕ → ℝ → ℝ
  | 0 => r
  | 1 => dRth r
  | 2 => d2Rth r
  | _ + 3 => fun _ => 0

theorem radFam_deriv {r : ℝ → ℝ} (hr : ContDiff ℝ 4 r) (J : Set ℝ) : DerivFam 2 J (radFam r) := by
  have h1 : ContDiff ℝ 3 (deriv r) := (contDiff_succ_iff_deriv.1 (show ContDiff ℝ (3 + 1) r from hr)).2.2
  intro i hi s _
  obtain rfl | rfl : i = 0 ∨ i = 1 := by omega
  · exact ((hr.differentiable (by norm_num)) s).hasDerivAt
  · exact ((h1.differentiable (by norm_num)) s).hasDerivAt

/-- **C27**–**C30** at the outer boundary, with the code's own formulas for normal, curvature and arclength: the
homogeneous plus the inhomogeneous polar extension, fed with the angular derivatives of the Cauchy data and the polar
derivatives of the source, is the degree-4 Taylor polynomial of the solution along the outward normal. -/
theorem C27_C28_outer {r : ℝ → ℝ} (hr : ContDiff ℝ 4 r) (hp : ∀ t, 0 < r t ^ 2 + deriv r t ^ 2) {Ω : Set (ℝ × ℝ)}
    {U F : ℕ → ℕ → ℝ × ℝ → ℂ} {k : ℝ} (hU : JetOn Ω 4 U) (hF : JetOn Ω 2 F) (hpde : Helmholtz Ω k U (F 0 0))
    {J : Set ℝ} (hJ : IsOpen J) {th : ℝ} (hth : th ∈ J) (hin : ∀ t ∈ J, polarPoint (r t) t ∈ Ω)
    {X0 X1 : ℕ → ℝ → ℂ} (h0 : DerivFam 4 J X0) (h1 : DerivFam 2 J X1)
    (e0 : ∀ t ∈ J, X0 0 t = U 0 0 (polarPoint (r t) t))
    (e1 : ∀ t ∈ J, X1 0 t = dir1 U (evalNormal r t).1 (evalNormal r t).2 (polarPoint (r t) t))
    {Ω' : Set (ℝ × ℝ)} {P : ℕ → ℕ → ℝ × ℝ → ℂ} (hP : JetOn Ω' 2 P) (hPin : ∀ t ∈ J, (r t, t) ∈ Ω')
    (eP : ∀ t ∈ J, P 0 0 (r t, t) = F 0 0 (polarPoint (r t) t)) (n : ℝ) {x : Tab}
    (hx0 : ∀ i ≤ 4, x (i, 0) = X0 i th) (hx1 : ∀ i ≤ 2, x (i, 1) = X1 i th) :
    let p := polarPoint (r th) th
    let N := evalNormal r th
    extendPolar k (outerArgs r n th x) +
      inhomoExtendPolar k
        { dFth := P 0 1 (r th, th), d2Fth := P 0 2 (r th, th), dFr := P 1 0 (r th, th), d2Fr := P 2 0 (r th, th),
          d2Frth := P 1 1 (r th, th), dThs := dThs r th, d2Ths := d2Ths r th, dRth := dRth r th, d2Rth := d2Rth r th }
        n (F 0 0 p) (dir1 F N.1 N.2 p) (dir2 F N.1 N.2 p) (curvTh r th) =
      taylorPoly 4 (fun t => U 0 0 (move p N.1 N.2 t)) n := by
  obtain ⟨I, θ, hI, hI0, hθ0, hθ, hmap⟩ := exists_arclength hr hp th hJ hth
  have hfam := thFam_deriv hr hp hθ
  have hfam2 : DerivFam 2 I (thFam r θ) := fun i hi => hfam i (by omega)
  have hκ := compFamR_deriv (I := I) (curvFam_deriv hr hp) hfam2 (fun _ _ => Set.mem_univ _)
  have fr := polar_frame hr hp hI hθ
  have key := C27_C28_sum (κ := compFamR (curvFam r) (thFam r θ)) hU hF hpde fr hκ (fun s hs => hin _ (hmap s hs))
    (compFam_deriv (by norm_num) h0 hfam hmap) (compFam_deriv (by norm_num) h1 hfam2 hmap)
    (alongFam_deriv hP (radFam_deriv hr J) hfam2 hmap hPin)
    (fun s hs => e0 _ (hmap s hs)) (fun s hs => e1 _ (hmap s hs)) (fun s hs => eP _ (hmap s hs)) hI0 n
  simp only [hθ0] at key
  simp only []
  refine Eq.trans ?_ key
  congr 1
  · unfold extendPolar
    congr 1
    simp only [polarToArc, outerArgs, compFam, compFamR, thFam, curvFam, hθ0, hx0 0 (by norm_num), hx0 1 (by norm_num),
      hx0 2 (by norm_num), hx0 3 (by norm_num), hx0 4 (by norm_num), hx1 0 (by norm_num), hx1 1 (by norm_num),
      hx1 2 (by norm_num)]
    congr 1
    ring
  · unfold inhomoExtendPolar
    congr 1
    simp only [alongFam, thFam, radFam, compFamR, curvFam, hθ0]
    rfl

/-! ## Concrete cases -/

/-- the family of derivatives of a plane wave along the circle of radius 2 -/
theorem planeCircle_contDiff (i : ℕ) : ContDiff ℝ 4 fun s : ℝ => planeJet 1 i 0 (2 * cos (s / 2), 2 * sin (s / 2)) := by
  have h0 : ContDiff ℝ 4 fun s : ℝ => 2 * cos (s / 2) := by fun_prop
  have h1 : ContDiff ℝ 4 fun s : ℝ => ((2 * cos (s / 2) : ℝ) : ℂ) := Complex.ofRealCLM.contDiff.comp h0
  simp only [planeJet, if_true]
  exact contDiff_const.mul ((contDiff_const.mul h1).cexp)

/-- C27: the plane wave `exp(i x)` near the circle of radius 2, curvature `-1/2` with respect to the outward normal -/
example (s n : ℝ) : extendArbitrary 1
      { n := n, curv := -1 / 2, dCurvS := 0, d2CurvS := 0,
        xi0 := planeJet 1 0 0 (2 * cos (s / 2), 2 * sin (s / 2)),
        xi1 := cos (s / 2) * planeJet 1 1 0 (2 * cos (s / 2), 2 * sin (s / 2)),
        dXi0 := iteratedDeriv 1 (fun s : ℝ => planeJet 1 0 0 (2 * cos (s / 2), 2 * sin (s / 2))) s,
        dXi1 := iteratedDeriv 1 (fun s : ℝ => cos (s / 2) * planeJet 1 1 0 (2 * cos (s / 2), 2 * sin (s / 2))) s,
        d2Xi0 := iteratedDeriv 2 (fun s : ℝ => planeJet 1 0 0 (2 * cos (s / 2), 2 * sin (s / 2))) s,
        d2Xi1 := iteratedDeriv 2 (fun s : ℝ => cos (s / 2) * planeJet 1 1 0 (2 * cos (s / 2), 2 * sin (s / 2))) s,
        d4Xi0 := iteratedDeriv 4 (fun s : ℝ => planeJet 1 0 0 (2 * cos (s / 2), 2 * sin (s / 2))) s } =
      taylorPoly 4 (fun t => planeJet 1 0 0 (move (2 * cos (s / 2), 2 * sin (s / 2)) (cos (s / 2)) (sin (s / 2)) t)) n := by
  have hc0 : ContDiff ℝ 2 fun s : ℝ => cos (s / 2) := by fun_prop
  have hc : ContDiff ℝ 2 fun s : ℝ => ((cos (s / 2) : ℝ) : ℂ) := Complex.ofRealCLM.contDiff.comp hc0
  have h := C27_taylor (κ := fun m _ => if m = 0 then -1 / 2 else 0) (planeJet_jetOn 1 4) (planeJet_helmholtz 1)
    (by simpa using circle_frame (ρ := 2) (by norm_num))
    (fun i hi s _ => (hasDerivAt_const s _).congr_deriv (by simp)) (fun _ _ => Set.mem_univ _)
    (derivFam_iter (n := 4) (planeCircle_contDiff 0) Set.univ)
    (derivFam_iter (n := 2) (hc.mul ((planeCircle_contDiff 1).of_le (by norm_num))) Set.univ)
    (fun s _ => by simp) (fun s _ => by simp [dir1, planeJet]) (Set.mem_univ s) n
  simp only [iteratedDeriv_zero, if_true, one_ne_zero, if_false, OfNat.ofNat_ne_zero] at h
  exact h

/-- C28: `y²` solves `Δu + k²u = 2 + k² y²` with zero Cauchy data on the line `y = 0` -/
example (k s n : ℝ) : inhomoExtendArbitrary k
      { n := n, f := 2, dFn := 0, d2Fn := 2 * (k : ℂ) ^ 2, d2Fs := 0, curv := 0 } = (n : ℂ) ^ 2 := by
  have fr : Frame Set.univ (fun s => s) (fun _ => 0) (fun _ => 1) (fun _ => 0) (fun _ => 0) (fun _ => 1) (fun _ => 0) :=
  { isOpen := isOpen_univ
    dx := fun s _ => hasDerivAt_id s
    dy := fun s _ => hasDerivAt_const s 0
    dt1 := fun s _ => by simpa using hasDerivAt_const s (1 : ℝ)
    dt2 := fun s _ => by simpa using hasDerivAt_const s (0 : ℝ)
    dn1 := fun s _ => by simpa using hasDerivAt_const s (0 : ℝ)
    dn2 := fun s _ => by simpa using hasDerivAt_const s (1 : ℝ)
    unitT := fun _ _ => by norm_num
    unitN := fun _ _ => by norm_num
    orth := fun _ _ => by norm_num }
  have h := C28_taylor (κ := fun _ _ => 0) (φ := fun m _ => if m = 0 then 2 else 0) (sqJet_jetOn 4) (sqSrc_jetOn k 2)
    (sq_helmholtz k) fr (fun i hi s _ => hasDerivAt_const s _) (fun _ _ => Set.mem_univ _)
    (fun i hi s _ => (hasDerivAt_const s _).congr_deriv (by simp)) (fun s _ => by simp [sqJet])
    (fun s _ => by simp [dir1, sqJet]) (fun s _ => by simp [sqSrc, sqJet]) (Set.mem_univ s) n
  have e1 : sqSrc k 0 0 (s, 0) = 2 := by simp [sqSrc, sqJet]
  have e2 : dir1 (sqSrc k) 0 1 (s, 0) = 0 := by simp [dir1, sqSrc, sqJet]
  have e3 : dir2 (sqSrc k) 0 1 (s, 0) = 2 * (k : ℂ) ^ 2 := by simp [dir2, sqSrc, sqJet]; ring
  simp only [e1, e2, e3, OfNat.ofNat_ne_zero, if_false] at h
  rw [h, taylorPoly_line (sqJet_jetOn 4) (Set.mem_univ _), taylorSum5]
  simp only [lineFam, move_zero, Function.iterate_succ, Function.iterate_zero, Function.comp, id, dirJet, sqJet]
  push_cast
  ring

/-- C29: a curve traversed with parameter `θ = s²` near `s = 1` -/
example (n : ℝ) := C29_chain_rule (I := Set.univ) (J := Set.univ) isOpen_univ
  (θ := fun m s => match m with | 0 => s ^ 2 | 1 => 2 * s | 2 => 2 | _ => 0) (κ := fun m t => if m = 0 then t else if m = 1 then 1 else 0)
  (φ0 := fun m t => if m = 0 then (t : ℂ) ^ 2 else if m = 1 then 2 * (t : ℂ) else if m = 2 then 2 else 0)
  (φ1 := fun m t => if m = 0 then (t : ℂ) else if m = 1 then 1 else 0)
  (by
    intro i hi s _
    obtain rfl | rfl | rfl | rfl : i = 0 ∨ i = 1 ∨ i = 2 ∨ i = 3 := by omega
    · simpa using hasDerivAt_pow 2 s
    · simpa using (hasDerivAt_id s).const_mul (2 : ℝ)
    · simpa using hasDerivAt_const s (2 : ℝ)
    · simpa using hasDerivAt_const s (0 : ℝ))
  (by
    intro i hi s _
    obtain rfl | rfl | rfl | rfl : i = 0 ∨ i = 1 ∨ i = 2 ∨ i = 3 := by omega
    · simpa using hasDerivAt_cpow' 1 1 s
    · simpa using hasDerivAt_cpow' 2 0 s
    · simpa using hasDerivAt_const s (2 : ℂ)
    · simpa using hasDerivAt_const s (0 : ℂ))
  (by
    intro i hi s _
    obtain rfl | rfl : i = 0 ∨ i = 1 := by omega
    · simpa using hasDerivAt_cpow' 1 0 s
    · simpa using hasDerivAt_const s (1 : ℂ))
  (by
    intro i hi s _
    obtain rfl | rfl : i = 0 ∨ i = 1 := by omega
    · simpa using hasDerivAt_id' s
    · simpa using hasDerivAt_const s (1 : ℝ))
  (fun _ _ => Set.mem_univ _) (Set.mem_univ (1 : ℝ)) n

/-- C30: the source `y²` in the coordinates `(r, th)` along the curve `r = th²`, traversed with `θ = s²` -/
example (s k n : ℝ) (f dFn d2Fn : ℂ) (κ : ℝ) := C30_chain_rule (I := Set.univ) (J := Set.univ) isOpen_univ
  (sqJet_jetOn 2) (ρ := fun m s => match m with | 0 => s ^ 2 | 1 => 2 * s | 2 => 2 | _ => 0)
  (θ := fun m s => match m with | 0 => s ^ 2 | 1 => 2 * s | 2 => 2 | _ => 0)
  (by
    intro i hi s _
    obtain rfl | rfl : i = 0 ∨ i = 1 := by omega
    · simpa using hasDerivAt_pow 2 s
    · simpa using (hasDerivAt_id s).const_mul (2 : ℝ))
  (by
    intro i hi s _
    obtain rfl | rfl : i = 0 ∨ i = 1 := by omega
    · simpa using hasDerivAt_pow 2 s
    · simpa using (hasDerivAt_id s).const_mul (2 : ℝ))
  (fun _ _ => Set.mem_univ _) (fun _ _ => Set.mem_univ _) (Set.mem_univ s) k n f dFn d2Fn κ

end Pot
