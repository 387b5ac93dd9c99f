import Verif.Model.PolarFDScripts
import Verif.Props.PolarFD
import Verif.Props.Bessel
import Verif.Props.ZChain
import Verif.Props.Interp
import Mathlib.Analysis.Calculus.ContDiff.Deriv

/-! # Property C107: the test problem of the polar scheme -/

namespace Pot
open Real Spec Filter Topology ContDiff

/-! ## The constants and the formula of the source -/

theorem symNu_eq : symNu = 6 / 11 := by
  unfold symNu symA
  have := pi_pos.ne'
  field_simp
  norm_num

theorem symV0_eq (k r : ℝ) : symV0 k r = ∑ l ∈ Finset.range 3, besselTerm (3 / 11) l (k * r / 2) := by
  unfold symV0 besselTerm
  simp only [List.range_succ, List.range_zero, List.nil_append, List.foldl_append, List.foldl_cons, List.foldl_nil, Finset.sum_range_succ,
    Finset.sum_range_zero]
  ring

theorem symV_eq (k : ℝ) : symV k = fun r th => vAsympt0 0 k (6 / 11) 3 r * sin ((((0 : ℕ) : ℝ) + 1 / 2) * (6 / 11) * (th - π / 6)) := by
  funext r th
  unfold symV
  rw [vAsympt0_eq, symV0_eq, symNu_eq, symA]
  norm_num

/-- **C107** the function `f` of sym.py is a single term: minus `k²` times the last term of the truncated series -/
theorem C107_source {r : ℝ} (hr : 0 < r) (th : ℝ) :
    symEvalF r th = -9 * ((3 * r / 2) ^ 4 * (3 * r / 2) ^ (3 / 11 : ℝ) / (2 * Gamma (36 / 11))) * sin (3 / 11 * (th - π / 6)) := by
  have h := C67_residual (k := 3) (by norm_num) (nu := 6 / 11) (by norm_num) 0 2 (π / 6) hr th
  have h' := h.helmOp_eq
  have e : symEvalF r th = -helmOp 3 (symV 3) r th := rfl
  rw [e, symV_eq, h', Nat.factorial_two, show (((0 : ℕ) : ℝ) + 1 / 2) * (6 / 11) = 3 / 11 by norm_num,
    show (3 / 11 + ((2 : ℕ) : ℝ) + 1) = 36 / 11 by norm_num]
  push_cast
  ring

/-- **C107** `eval_u` of the test solves the Helmholtz equation with this source, for every function that satisfies Bessel's equation,
and vanishes on the side at the angle `a` -/
theorem C107_solution {jv : ℝ → ℝ → ℝ} {r : ℝ} (hr : 0 < r) (hJ : BesselAt (3 / 11) (jv (3 / 11)) (3 * r)) (th : ℝ) :
    HelmholtzAt 3 (testU jv) (symEvalF r th) r th ∧ testU jv r (π / 6) = 0 := by
  have hn : symNu / 2 = 3 / 11 := by rw [symNu_eq]; norm_num
  constructor
  · have h1 := bessel_helmholtz (k := 3) (a := π / 6) hr.ne' hJ th
    have h := C67_residual (k := 3) (by norm_num) (nu := 6 / 11) (by norm_num) 0 2 (π / 6) hr th
    have hf : symEvalF r th = -helmOp 3 (symV 3) r th := rfl
    rw [hf, symV_eq, h.helmOp_eq]
    obtain ⟨x1, x2, y1, y2, p1, p2, p3⟩ := h1
    obtain ⟨x1', x2', y1', y2', p1', p2', p3'⟩ := h
    have ev : symEvalV = fun r th => vAsympt0 0 3 (6 / 11) (2 + 1) r * sin ((((0 : ℕ) : ℝ) + 1 / 2) * (6 / 11) * (th - π / 6)) := symV_eq 3
    have eu : testU jv = fun r th => jv (3 / 11) (3 * r) * sin (3 / 11 * (th - π / 6)) -
        vAsympt0 0 3 (6 / 11) (2 + 1) r * sin ((((0 : ℕ) : ℝ) + 1 / 2) * (6 / 11) * (th - π / 6)) := by
      funext r th
      unfold testU
      rw [hn, ev]
      rfl
    rw [eu]
    refine ⟨_, _, _, _, p1.sub p1', p2.sub p2', ?_⟩
    linear_combination p3 - p3'
  · simp [testU, symEvalV, symV, symA]

/-! ## Smoothness -/

theorem facSeries_contDiff (n : ℕ) : ∀ {c : ℕ → ℝ} {B : ℝ}, (∀ l, |c l| ≤ B / l.factorial) → ContDiff ℝ n fun z => ∑' l, c l * z ^ l := by
  induction n with
  | zero =>
    intro c B hc
    rw [Nat.cast_zero, contDiff_zero]
    exact continuous_iff_continuousAt.2 fun z => (facSeries_deriv hc z).continuousAt
  | succ n ih =>
    intro c B hc
    rw [Nat.cast_succ, contDiff_succ_iff_deriv]
    refine ⟨fun z => (facSeries_deriv hc z).differentiableAt, by simp, ?_⟩
    have e : deriv (fun z => ∑' l, c l * z ^ l) = fun z => ∑' l : ℕ, (((l : ℝ) + 1) * c (l + 1)) * z ^ l := by
      funext z
      exact (facSeries_deriv hc z).deriv
    rw [e]
    exact ih (facSeries_shift hc)

theorem besselJ_contDiffOn {mu : ℝ} (hmu : 0 ≤ mu) : ContDiffOn ℝ ∞ (besselJ mu) (Set.Ioi 0) := by
  rw [contDiffOn_infty]
  intro n
  have e : besselJ mu = fun x => bE mu ((x / 2) ^ 2) * (x / 2) ^ mu := funext (besselJ_eq mu)
  rw [e]
  have h1 : ContDiff ℝ n (bE mu) := facSeries_contDiff n (bc_bound hmu)
  refine ContDiffOn.mul (h1.comp (by fun_prop)).contDiffOn ?_
  exact ContDiffOn.rpow_const_of_ne (by fun_prop) fun x hx => by
    have : (0:ℝ) < x := hx
    positivity

theorem besselTerm_contDiffOn (mu : ℝ) (l : ℕ) : ContDiffOn ℝ ∞ (fun r => besselTerm mu l (3 * r / 2)) (Set.Ioi 0) := by
  unfold besselTerm
  refine ContDiffOn.mul (by fun_prop) ?_
  exact ContDiffOn.rpow_const_of_ne (by fun_prop) fun x hx => by
    have : (0:ℝ) < x := hx
    positivity

/-- the radial part of `eval_u` -/
noncomputable def testG (r : ℝ) : ℝ := besselJ (3 / 11) (3 * r) - ∑ l ∈ Finset.range 3, besselTerm (3 / 11) l (3 * r / 2)

/-- the radial part of `eval_f` -/
noncomputable def testF (r : ℝ) : ℝ := -9 * besselTerm (3 / 11) 2 (3 * r / 2)

/-- the angular part of both -/
noncomputable def testS (th : ℝ) : ℝ := sin (3 / 11 * (th - π / 6))

theorem testG_contDiffOn : ContDiffOn ℝ ∞ testG (Set.Ioi 0) := by
  unfold testG
  refine ContDiffOn.sub ?_ ?_
  · exact (besselJ_contDiffOn (by norm_num)).comp (by fun_prop) fun x hx => by
      have : (0:ℝ) < x := hx
      show (0:ℝ) < 3 * x
      positivity
  · exact ContDiffOn.sum fun l _ => besselTerm_contDiffOn _ l

theorem testF_contDiffOn : ContDiffOn ℝ ∞ testF (Set.Ioi 0) := by
  unfold testF
  exact contDiffOn_const.mul (besselTerm_contDiffOn _ 2)

theorem testS_contDiff : ContDiff ℝ ∞ testS := by
  unfold testS
  fun_prop

theorem testU_eq (r th : ℝ) : testU besselJ r th = testG r * testS th := by
  unfold testU testG testS symEvalV symV
  rw [symV0_eq, symNu_eq, symK, symA, show (6:ℝ) / 11 / 2 = 3 / 11 by norm_num]
  ring

theorem symEvalF_eq {r : ℝ} (hr : 0 < r) (th : ℝ) : symEvalF r th = testF r * testS th := by
  rw [C107_source hr]
  unfold testF testS besselTerm
  rw [show (3 / 11 + ((2 : ℕ) : ℝ) + 1) = 36 / 11 by norm_num, Nat.factorial_two]
  push_cast
  ring

/-! ## Jets of products -/

theorem iter_deriv_contDiffOn {g : ℝ → ℝ} {I : Set ℝ} (hI : IsOpen I) (h : ContDiffOn ℝ ∞ g I) (i : ℕ) : ContDiffOn ℝ ∞ (deriv^[i] g) I := by
  induction i with
  | zero => exact h
  | succ i ih =>
    rw [Function.iterate_succ_apply']
    exact ih.deriv_of_isOpen hI le_rfl

theorem iter_deriv_hasDerivAt {g : ℝ → ℝ} {I : Set ℝ} (hI : IsOpen I) (h : ContDiffOn ℝ ∞ g I) (i : ℕ) {x : ℝ} (hx : x ∈ I) :
    HasDerivAt (deriv^[i] g) (deriv^[i + 1] g x) x := by
  rw [Function.iterate_succ_apply']
  exact (((iter_deriv_contDiffOn hI h i).differentiableOn (by simp)).differentiableAt (hI.mem_nhds hx)).hasDerivAt

/-- the partial derivatives of a product of a function of `r` and a function of the angle -/
noncomputable def prodJet (g s : ℝ → ℝ) (i j : ℕ) (p : ℝ × ℝ) : ℂ := ((deriv^[i] g p.1 * deriv^[j] s p.2 : ℝ) : ℂ)

theorem prodJet_jetOn {g s : ℝ → ℝ} (hg : ContDiffOn ℝ ∞ g (Set.Ioi 0)) (hs : ContDiff ℝ ∞ s) (n : ℕ) :
    JetOn {p : ℝ × ℝ | 0 < p.1} n (prodJet g s) := by
  refine ⟨isOpen_lt continuous_const continuous_fst, fun i j _ p hp => ?_⟩
  have h1 := (iter_deriv_hasDerivAt isOpen_Ioi hg i (x := p.1) hp).comp_hasFDerivAt p (hasFDerivAt_fst (𝕜 := ℝ) (p := p))
  have h2 := (iter_deriv_hasDerivAt isOpen_univ hs.contDiffOn j (x := p.2) trivial).comp_hasFDerivAt p (hasFDerivAt_snd (𝕜 := ℝ) (p := p))
  have h3 := Complex.ofRealCLM.hasFDerivAt.comp p (h1.mul h2)
  refine h3.congr_fderiv ?_
  ext <;> simp [grad2, prodJet]
  ring

theorem twiceAt_of_contDiffOn {g : ℝ → ℝ} (hg : ContDiffOn ℝ ∞ g (Set.Ioi 0)) {r : ℝ} (hr : 0 < r) :
    TwiceAt g r (deriv g r) (deriv (deriv g) r) := by
  refine ⟨deriv g, ?_, rfl, iter_deriv_hasDerivAt isOpen_Ioi hg 1 hr⟩
  filter_upwards [Ioi_mem_nhds hr] with y hy
  exact iter_deriv_hasDerivAt isOpen_Ioi hg 0 hy

theorem test_helmholtz : PolarHelmholtz {p : ℝ × ℝ | 0 < p.1} 3 (prodJet testG testS) (prodJet testF testS 0 0) := by
  rintro ⟨r, th⟩ hr
  have hr : 0 < r := hr
  have h1 := (C107_solution hr (C76_bessel (by norm_num) (by positivity)) th).1.helmOp_eq
  have eu : testU besselJ = fun r th => testG r * sin (3 / 11 * (th - π / 6)) := by
    funext r th
    rw [testU_eq]; rfl
  rw [eu, (HelmholtzAt.mode 3 (3 / 11) (π / 6) (twiceAt_of_contDiffOn testG_contDiffOn hr) th).helmOp_eq, symEvalF_eq hr] at h1
  have hs : deriv (deriv testS) th = -(3 / 11) ^ 2 * testS th := (TwiceAt.sin (3 / 11) (π / 6) th).deriv2_eq
  have h2 : deriv (deriv testG) r * testS th + deriv testG r * testS th / r + testG r * deriv (deriv testS) th / r ^ 2
      + 3 ^ 2 * (testG r * testS th) = testF r * testS th := by
    rw [← h1, hs]
    unfold testS
    field_simp
    ring
  have h3 := congrArg (fun x : ℝ => (x : ℂ)) h2
  simp only [prodJet, Function.iterate_succ, Function.iterate_zero, Function.comp_apply, id_eq]
  push_cast at h3 ⊢
  linear_combination h3

/-! ## The scheme on the test problem -/

/-- the data of the test problem as `solve` takes them -/
noncomputable def testData : PfData where
  k := symK
  phiInit := fun th => ((testU besselJ 0 th : ℝ) : ℂ)
  phi0 := fun th => ((testU besselJ 2.3 th : ℝ) : ℂ)
  phi1 := fun r => ((testU besselJ r (2 * π) : ℝ) : ℂ)
  phi2 := fun r => ((testU besselJ r symA : ℝ) : ℂ)
  f := fun r th => ((symEvalF r th : ℝ) : ℂ)
  dFr := fun r th => ((symEvalDFr r th : ℝ) : ℂ)
  d2Fr := fun r th => ((symEvalD2Fr r th : ℝ) : ℂ)
  d2Fth := fun r th => ((symEvalD2Fth r th : ℝ) : ℂ)

theorem testData_source {r : ℝ} (hr : 0 < r) (th : ℝ) :
    testData.f r th = prodJet testF testS 0 0 (r, th) ∧ testData.dFr r th = prodJet testF testS 1 0 (r, th) ∧
      testData.d2Fr r th = prodJet testF testS 2 0 (r, th) ∧ testData.d2Fth r th = prodJet testF testS 0 2 (r, th) := by
  have he : (fun ρ => symEvalF ρ th) =ᶠ[𝓝 r] fun ρ => testF ρ * testS th := by
    filter_upwards [Ioi_mem_nhds hr] with y hy using symEvalF_eq hy th
  have ht := (twiceAt_of_contDiffOn testF_contDiffOn hr).mul_const (testS th)
  have h2 : (symEvalF r) = fun th => testF r * testS th := funext (symEvalF_eq hr)
  refine ⟨?_, ?_, ?_, ?_⟩
  · simp [testData, prodJet, symEvalF_eq hr]
  · simp only [testData, prodJet, symEvalDFr, he.deriv_eq, ht.deriv_eq]
    rfl
  · simp only [testData, prodJet, symEvalD2Fr, he.deriv.deriv_eq, ht.deriv2_eq]
    rfl
  · have h3 : deriv (deriv fun th => testF r * testS th) th = testF r * deriv (deriv testS) th := by
      exact ((TwiceAt.sin (3 / 11) (π / 6) th).const_mul (testF r)).deriv2_eq.trans
        (by rw [← (TwiceAt.sin (3 / 11) (π / 6) th).deriv2_eq]; rfl)
    simp only [testData, prodJet, symEvalD2Fth, h2, h3]
    rfl

theorem iter_deriv_bound {g : ℝ → ℝ} {I : Set ℝ} (hI : IsOpen I) (h : ContDiffOn ℝ ∞ g I) {u v : ℝ} (hs : Set.Icc u v ⊆ I) (n : ℕ) :
    ∃ A, 0 ≤ A ∧ ∀ i ≤ n, ∀ x, u ≤ x → x ≤ v → |deriv^[i] g x| ≤ A := by
  have : ∀ i, ∃ C, ∀ x ∈ Set.Icc u v, ‖deriv^[i] g x‖ ≤ C := fun i =>
    isCompact_Icc.exists_bound_of_continuousOn ((iter_deriv_contDiffOn hI h i).continuousOn.mono hs)
  choose C hC using this
  refine ⟨∑ i ∈ Finset.range (n + 1), |C i|, Finset.sum_nonneg fun _ _ => abs_nonneg _, fun i hi x h1 h2 => ?_⟩
  refine (hC i x ⟨h1, h2⟩).trans ((le_abs_self _).trans ?_)
  exact Finset.single_le_sum (f := fun i => |C i|) (fun _ _ => abs_nonneg _) (Finset.mem_range.2 (by omega))

/-- **C107** on every ring around the tip the exact solution of the test satisfies the equations of the scheme with the source of sym.py
up to `C / N⁴`, at every inner node of every grid. -/
theorem C107_consistency {R0 R1 : ℝ} (h0 : 0 < R0) (h1 : R0 < R1) :
    ∃ C, ∀ N : ℕ, ∀ p, pfInit N symA symNu R0 R1 = .ok p → ∀ m l : ℕ, 1 ≤ m → m < N → 1 ≤ l → l < N →
      ‖(pfStencil.map fun x => (fd4Coef p testData.k m x.1 x.2 : ℂ) *
          ((testU besselJ (p.getR ((m : ℤ) + x.1 : ℤ)) (p.getTh ((l : ℤ) + x.2 : ℤ)) : ℝ) : ℂ)).sum - fd4Rhs p testData m l‖ ≤ C / N ^ 4 := by
  have hpi := pi_pos
  obtain ⟨A, hA0, hA⟩ := iter_deriv_bound isOpen_Ioi testG_contDiffOn (u := R0) (v := R1) (fun x hx => lt_of_lt_of_le h0 hx.1) 6
  obtain ⟨B, hB0, hB⟩ := iter_deriv_bound isOpen_univ testS_contDiff.contDiffOn (u := symA) (v := 2 * π) (fun _ _ => trivial) 6
  set K := max 1 R0⁻¹ with hK
  refine ⟨3 * (A * B * K ^ 6 * (1 + testData.k ^ 2)) * ((R1 - R0) ^ 4 + (2 * π - symA) ^ 4), fun N p hp m l hm1 hm2 hl1 hl2 => ?_⟩
  have hN : (0:ℝ) < N := by exact_mod_cast (by omega : 0 < N)
  have hd : 0 < 2 * π - symA := by unfold symA; linarith
  have hp' : p = { N := N, a := symA, nu := symNu, R0 := R0, R1 := R1, hr := (R1 - R0) / N, hth := (2 * π - symA) / N } := by
    unfold pfInit at hp
    rw [if_neg (by omega)] at hp
    exact (Except.ok.inj hp).symm
  have e1 : p.hr = (R1 - R0) / N := by rw [hp']
  have e2 : p.hth = (2 * π - symA) / N := by rw [hp']
  have b1 : ∀ s, |s| ≤ p.hr → R0 ≤ p.getR m + s ∧ p.getR m + s ≤ R1 := by
    intro s hs
    obtain ⟨s1, s2⟩ := abs_le.1 hs
    have q : p.getR m = R0 + m * p.hr := by rw [hp']; rfl
    have hNe : N * p.hr = R1 - R0 := by rw [e1]; field_simp
    have hr0 : 0 ≤ p.hr := by rw [e1]; exact div_nonneg (by linarith) hN.le
    have g1 : 1 * p.hr ≤ m * p.hr := by gcongr; exact_mod_cast hm1
    have g2 : ((m : ℝ) + 1) * p.hr ≤ N * p.hr := by gcongr; exact_mod_cast hm2
    rw [q]
    constructor <;> linarith
  have b2 : ∀ w, |w| ≤ p.hth → symA ≤ p.getTh l + w ∧ p.getTh l + w ≤ 2 * π := by
    intro s hs
    obtain ⟨s1, s2⟩ := abs_le.1 hs
    have q : p.getTh l = symA + l * p.hth := by rw [hp']; rfl
    have hNe : N * p.hth = 2 * π - symA := by rw [e2]; field_simp
    have hr0 : 0 ≤ p.hth := by rw [e2]; exact div_nonneg hd.le hN.le
    have g1 : 1 * p.hth ≤ l * p.hth := by gcongr; exact_mod_cast hl1
    have g2 : ((l : ℝ) + 1) * p.hth ≤ N * p.hth := by gcongr; exact_mod_cast hl2
    rw [q]
    constructor <;> linarith
  have h := C49_consistency (prodJet_jetOn testG_contDiffOn testS_contDiff 6) (prodJet_jetOn testF_contDiffOn testS_contDiff 2) p testData
    test_helmholtz (fun q hq => (show (0:ℝ) < q.1 from hq).ne') (fun r th hr => testData_source hr th) (m := m) (l := l)
    (M := A * B) (K := K) (by rw [e1]; exact div_pos (by linarith) hN) (by rw [e2]; exact div_pos hd hN)
    (fun s w hs _ => lt_of_lt_of_le h0 (b1 s hs).1)
    (fun i j hij s w hs hw => by
      rw [prodJet, Complex.norm_real, norm_mul, norm_eq_abs, norm_eq_abs]
      exact mul_le_mul (hA i (by omega) _ (b1 s hs).1 (b1 s hs).2) (hB j (by omega) _ (b2 w hw).1 (b2 w hw).2) (abs_nonneg _) hA0)
    (fun s hs => by
      have := (b1 s hs).1
      exact ⟨lt_of_lt_of_le h0 this, (inv_anti₀ h0 this).trans (le_max_right _ _)⟩)
    (le_max_left _ _)
  have ej : ∀ r th, prodJet testG testS 0 0 (r, th) = ((testU besselJ r th : ℝ) : ℂ) := by
    intro r th
    rw [testU_eq]; rfl
  simp only [ej] at h
  refine h.trans (le_of_eq ?_)
  rw [e1, e2]
  field_simp

/-- **C107** near the tip `eval_u` is of the order of `r ^ (6 + 3/11)` -/
theorem C107_tip {r : ℝ} (hr : 0 ≤ r) (th : ℝ) :
    |testU besselJ r th| ≤ (3 * r / 2) ^ 6 * (3 * r / 2) ^ (3 / 11 : ℝ) / (6 * Gamma (47 / 11)) * exp ((3 * r / 2) ^ 2) := by
  have h := C76_truncation (mu := 3 / 11) (by norm_num) (x := 3 * r) (by positivity) 3
  rw [testU_eq, abs_mul]
  refine (mul_le_of_le_one_right (abs_nonneg _) (abs_sin_le_one _)).trans ?_
  refine h.trans (le_of_eq ?_)
  rw [show (3 / 11 + ((3 : ℕ) : ℝ) + 1) = 47 / 11 by norm_num, show (Nat.factorial 3 : ℝ) = 6 by norm_num [Nat.factorial]]

/-! ## The programs -/

/-- **C107** scripts/polarfd/test.py prints the heading for 16 and stops with a `TypeError`, whatever would follow -/
theorem C107_test (rest : PolarFD → ℕ → Py Unit) : polarfdTest rest = ([16], .error .typeError) := rfl

/-- **C107** scripts/zmethod/interp_test.py prints nothing and stops with a `TypeError`.  With the five arguments `PolarFD` takes, it
still does, because `create_v_interp` returns nothing; and it never finishes whatever the arguments. -/
theorem C107_interp (interp2d : Interp2d) (rest : ℂ → ℕ → Py Unit) :
    interpTest interp2d interpTestArgs rest = ([], .error .typeError) ∧
    (∀ R0, 0 ≤ R0 → R0 < 2.3 → IsInterp2d interp2d →
      interpTest interp2d (fun N => [.int N, .float symA, .float symNu, .float R0, .float 2.3]) rest = ([], .error .typeError)) ∧
    ∀ args, ∃ e, interpTest interp2d args rest = ([], .error e) := by
  have key : ∀ args, ∃ e, interpTest interp2d args rest = ([], .error e) ∧
      (∀ p F, pfCall (args 16) = .ok p → createVInterp interp2d p (interpTestArr p 16) 2.3 0 16 = .ok F → e = .typeError) := by
    intro args
    unfold interpTest createVInterpCall
    simp only [headedLoop]
    rcases hp : pfCall (args 16) with e | p
    · exact ⟨e, rfl, fun p F h => by cases h⟩
    · rcases hF : createVInterp interp2d p (interpTestArr p 16) 2.3 0 16 with e | F
      · refine ⟨e, ?_, fun p' F h1 h2 => ?_⟩
        · simp only [ok_bind, hF]; rfl
        · cases h1
          rw [hF] at h2
          cases h2
      · refine ⟨.typeError, ?_, fun _ _ _ _ => rfl⟩
        simp only [ok_bind, hF]
        rfl
  refine ⟨rfl, fun R0 h0 h1' h => ?_, fun args => ?_⟩
  · obtain ⟨e, h1, h2⟩ := key fun N => [.int N, .float symA, .float symNu, .float R0, .float 2.3]
    have hpi := pi_pos
    set p : PolarFD := { N := 16, a := symA, nu := symNu, R0 := R0, R1 := 2.3, hr := (2.3 - R0) / (16 : ℕ), hth := (2 * π - symA) / (16 : ℕ) } with hp
    have hr : 0 < (2.3 - R0) / ((16 : ℕ) : ℝ) := div_pos (by linarith) (by norm_num)
    obtain ⟨F, hF, -⟩ := C55_interp h p (interpTestArr p 16) (fun m l => ((interpTestV (p.getR m) (p.getTh l) : ℝ) : ℂ)) 2.3 0 16 (by norm_num)
      hr (div_pos (by unfold symA; linarith) (by norm_num)) (fun m l hm hl => by
        unfold rowsGet interpTestArr
        rw [listGet_of_lt _ _ (by simp; omega), ok_bind, listGet_of_lt _ _ (by simp; omega)]
        simp) (by
        rw [(C55_rmin 16 2.3 0).1 (by norm_num)]
        show 0 ≤ R0 + _ * ((2.3 - R0) / ((16 : ℕ) : ℝ))
        positivity)
    rw [h1, h2 p F rfl hF]
  · obtain ⟨e, h1, -⟩ := key args
    exact ⟨e, h1⟩

/-- **C107** the output of apply_helmholtz.py: `k² r + 1/r`, and the unit vector away from the origin -/
theorem C107_apply (k th : ℝ) :
    (∀ r, applyHelmholtzOut k r th = 1 / r + k ^ 2 * r) ∧
    ∀ x y, (x, y) ≠ (0, 0) → applyHelmholtzGrad x y = (x / √(x ^ 2 + y ^ 2), y / √(x ^ 2 + y ^ 2)) := by
  constructor
  · intro r
    simp [applyHelmholtzOut]
  · intro x y h
    have hpos : 0 < x ^ 2 + y ^ 2 := by
      rcases eq_or_ne x 0 with rfl | hx
      · have : y ≠ 0 := fun hy => h (by rw [hy])
        positivity
      · positivity
    have d1 : HasDerivAt (fun s => √(s ^ 2 + y ^ 2)) (x / √(x ^ 2 + y ^ 2)) x := by
      have := (((hasDerivAt_pow 2 x).add_const (y ^ 2)).sqrt hpos.ne')
      refine this.congr_deriv ?_
      push_cast
      field_simp
    have d2 : HasDerivAt (fun s => √(x ^ 2 + s ^ 2)) (y / √(x ^ 2 + y ^ 2)) y := by
      have := (((hasDerivAt_pow 2 y).const_add (x ^ 2)).sqrt hpos.ne')
      refine this.congr_deriv ?_
      push_cast
      field_simp
    simp only [applyHelmholtzGrad, d1.deriv, d2.deriv]

/-! ## The hypotheses are met -/

/-- the Bessel function itself, at every point of the ring -/
example (th : ℝ) : HelmholtzAt 3 (testU besselJ) (symEvalF 1 th) 1 th :=
  (C107_solution one_pos (C76_bessel (by norm_num) (by norm_num)) th).1

/-- the source is not zero -/
example : symEvalF 1 (2 * π) < 0 := by
  have hs : sin (3 / 11 * (2 * π - π / 6)) = 1 := by rw [show 3 / 11 * (2 * π - π / 6) = π / 2 by ring, sin_pi_div_two]
  have hG := Gamma_pos_of_pos (show (0:ℝ) < 36 / 11 by norm_num)
  have hp : (0:ℝ) < (3 * 1 / 2) ^ (3 / 11 : ℝ) := rpow_pos_of_pos (by norm_num) _
  rw [C107_source one_pos, hs]
  have : 0 < (3 * 1 / 2 : ℝ) ^ 4 * (3 * 1 / 2) ^ (3 / 11 : ℝ) / (2 * Gamma (36 / 11)) := by positivity
  linarith

/-- the ring between 0.1 and 2.3, with 16 cells -/
example : ∃ C, ∃ p, pfInit 16 symA symNu 0.1 2.3 = .ok p ∧
    ‖(pfStencil.map fun x => (fd4Coef p testData.k (3 : ℕ) x.1 x.2 : ℂ) *
      ((testU besselJ (p.getR (((3 : ℕ) : ℤ) + x.1 : ℤ)) (p.getTh (((5 : ℕ) : ℤ) + x.2 : ℤ)) : ℝ) : ℂ)).sum - fd4Rhs p testData (3 : ℕ) (5 : ℕ)‖
      ≤ C / (16 : ℕ) ^ 4 := by
  obtain ⟨C, hC⟩ := C107_consistency (R0 := 0.1) (R1 := 2.3) (by norm_num) (by norm_num)
  exact ⟨C, _, rfl, hC 16 _ rfl 3 5 (by norm_num) (by norm_num) (by norm_num) (by norm_num)⟩

/-- the interpolation test with an interpolation that meets its contract -/
example : interpTest lookupInterp (fun N => [.int N, .float symA, .float symNu, .float 0.1, .float 2.3]) (fun _ _ => .ok ()) = ([], .error .typeError) :=
  (C107_interp lookupInterp _).2.1 0.1 (by norm_num) (by norm_num) lookupInterp_spec

end Pot
