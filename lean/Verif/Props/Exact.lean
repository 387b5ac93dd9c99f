import Verif.Props.Residual
import Verif.Props.Main

/-! # C95: the method is exact for `u = α + β (x² + y²)`

The fourth-order scheme, the Taylor expansions along the normals (to fourth order), the extension of the source (to second order) and the
Chebyshev fits with at least four basis functions all reproduce such a solution without error.
On the arc this holds for every `α`, `β`; on the other boundaries for the constants (`β = 0`), because there the data of `x² + y²` along the
curve is not a polynomial of the parameter. -/

namespace Pot
open Real Finset Spec

/-- `α + β (x² + y²)` -/
noncomputable def radial (α β : ℂ) : ℝ × ℝ → ℂ := fun q => α + β * ((q.1 : ℂ) ^ 2 + (q.2 : ℂ) ^ 2)

/-- polynomials of degree two without mixed term -/
noncomputable def quadPoly (c a1 a2 b1 b2 : ℂ) : ℝ × ℝ → ℂ :=
  fun q => c + a1 * (q.1 : ℂ) + a2 * (q.2 : ℂ) + b1 * (q.1 : ℂ) ^ 2 + b2 * (q.2 : ℂ) ^ 2

theorem radial_eq (α β : ℂ) : radial α β = quadPoly α 0 0 β β := by
  funext q
  simp only [radial, quadPoly]
  ring

theorem inPolar_radial (α β : ℂ) : inPolar (radial α β) = quadPoly α 0 0 β 0 := by
  funext q
  have h : ((cos q.2 : ℝ) : ℂ) ^ 2 + ((sin q.2 : ℝ) : ℂ) ^ 2 = 1 := by exact_mod_cast Real.cos_sq_add_sin_sq q.2
  simp only [inPolar, radial, quadPoly, polarPoint]
  push_cast at h ⊢
  linear_combination β * (q.1 : ℂ) ^ 2 * h

theorem ofReal_fst : HasFDerivAt (fun q : ℝ × ℝ => (q.1 : ℂ)) (Complex.ofRealCLM.comp (ContinuousLinearMap.fst ℝ ℝ ℝ)) q :=
  (Complex.ofRealCLM.comp (ContinuousLinearMap.fst ℝ ℝ ℝ)).hasFDerivAt

theorem ofReal_snd : HasFDerivAt (fun q : ℝ × ℝ => (q.2 : ℂ)) (Complex.ofRealCLM.comp (ContinuousLinearMap.snd ℝ ℝ ℝ)) q :=
  (Complex.ofRealCLM.comp (ContinuousLinearMap.snd ℝ ℝ ℝ)).hasFDerivAt

theorem quadPoly_fderiv (c a1 a2 b1 b2 : ℂ) (q v : ℝ × ℝ) : fderiv ℝ (quadPoly c a1 a2 b1 b2) q v =
    (a1 + 2 * b1 * q.1) * v.1 + (a2 + 2 * b2 * q.2) * v.2 := by
  have h := ((((hasFDerivAt_const c q).add (ofReal_fst.const_mul a1)).add (ofReal_snd.const_mul a2)).add
    ((ofReal_fst.pow 2).const_mul b1)).add ((ofReal_snd.pow 2).const_mul b2)
  have h' : HasFDerivAt (quadPoly c a1 a2 b1 b2) _ q := h
  rw [h'.fderiv]
  simp
  ring

theorem quadPoly_contDiff (c a1 a2 b1 b2 : ℂ) (m : ℕ) : ContDiff ℝ m (quadPoly c a1 a2 b1 b2) := by
  have h1 : ContDiff ℝ m fun q : ℝ × ℝ => (q.1 : ℂ) := (Complex.ofRealCLM.comp (ContinuousLinearMap.fst ℝ ℝ ℝ)).contDiff
  have h2 : ContDiff ℝ m fun q : ℝ × ℝ => (q.2 : ℂ) := (Complex.ofRealCLM.comp (ContinuousLinearMap.snd ℝ ℝ ℝ)).contDiff
  exact (((contDiff_const.add (contDiff_const.mul h1)).add (contDiff_const.mul h2)).add (contDiff_const.mul (h1.pow 2))).add
    (contDiff_const.mul (h2.pow 2))

theorem pd1_quadPoly (c a1 a2 b1 b2 : ℂ) : pd1 (quadPoly c a1 a2 b1 b2) = quadPoly a1 (2 * b1) 0 0 0 := by
  funext q
  unfold pd1
  rw [quadPoly_fderiv]
  simp [quadPoly]

theorem pd2_quadPoly (c a1 a2 b1 b2 : ℂ) : pd2 (quadPoly c a1 a2 b1 b2) = quadPoly a2 0 (2 * b2) 0 0 := by
  funext q
  unfold pd2
  rw [quadPoly_fderiv]
  simp [quadPoly]

theorem quadPoly_zero (q : ℝ × ℝ) : quadPoly 0 0 0 0 0 q = 0 := by simp [quadPoly]

theorem pd1_iter_zero (i : ℕ) : pd1^[i] (quadPoly 0 0 0 0 0) = quadPoly 0 0 0 0 0 := by
  induction i with
  | zero => rfl
  | succ i ih => rw [Function.iterate_succ_apply, pd1_quadPoly]; simpa using ih

theorem pd2_iter_zero (i : ℕ) : pd2^[i] (quadPoly 0 0 0 0 0) = quadPoly 0 0 0 0 0 := by
  induction i with
  | zero => rfl
  | succ i ih => rw [Function.iterate_succ_apply, pd2_quadPoly]; simpa using ih

/-- all derivatives of order at least three vanish -/
theorem pdFam_quadPoly (c a1 a2 b1 b2 : ℂ) {i j : ℕ} (h : 3 ≤ i + j) (q : ℝ × ℝ) : pdFam (quadPoly c a1 a2 b1 b2) i j q = 0 := by
  unfold pdFam
  match j, h with
  | 0, h =>
    obtain ⟨i', rfl⟩ : ∃ i', i = i' + 3 := ⟨i - 3, by omega⟩
    rw [Function.iterate_zero, id_eq, Function.iterate_add_apply]
    simp only [Function.iterate_succ, Function.iterate_zero, Function.comp_apply, id_eq, pd1_quadPoly, mul_zero, pd1_iter_zero, quadPoly_zero]
  | 1, h =>
    obtain ⟨i', rfl⟩ : ∃ i', i = i' + 1 := ⟨i - 1, by omega⟩
    rw [Function.iterate_one, Function.iterate_add_apply, Function.iterate_one, pd2_quadPoly, pd1_quadPoly, mul_zero, pd1_iter_zero,
      quadPoly_zero]
  | 2, h =>
    obtain ⟨i', rfl⟩ : ∃ i', i = i' + 1 := ⟨i - 1, by omega⟩
    rw [Function.iterate_add_apply _ i' 1, Function.iterate_one]
    simp only [Function.iterate_succ, Function.iterate_zero, Function.comp_apply, id_eq, pd2_quadPoly, pd1_quadPoly, mul_zero,
      pd1_iter_zero, quadPoly_zero]
  | j + 3, _ =>
    rw [Function.iterate_add_apply _ j 3]
    simp only [Function.iterate_succ, Function.iterate_zero, Function.comp_apply, id_eq, pd2_quadPoly, mul_zero,
      pd2_iter_zero, pd1_iter_zero, quadPoly_zero]

theorem iteratedDeriv_quad (A B : ℂ) {m : ℕ} (hm : 3 ≤ m) (t : ℝ) : iteratedDeriv m (fun t : ℝ => A + B * (t : ℂ) ^ 2) t = 0 := by
  have h1 : deriv (fun t : ℝ => A + B * (t : ℂ) ^ 2) = fun t : ℝ => 2 * B * (t : ℂ) := by
    funext t
    have := ((Complex.ofRealCLM.hasDerivAt (x := t)).pow 2).const_mul B |>.const_add A
    have h : HasDerivAt (fun t : ℝ => A + B * (t : ℂ) ^ 2) _ t := this
    rw [h.deriv]
    simp
    ring
  have h2 : deriv (fun t : ℝ => 2 * B * (t : ℂ)) = fun _ => 2 * B := by
    funext t
    have := (Complex.ofRealCLM.hasDerivAt (x := t)).const_mul (2 * B)
    have h : HasDerivAt (fun t : ℝ => 2 * B * (t : ℂ)) _ t := this
    rw [h.deriv]
    simp
  obtain ⟨l, rfl⟩ : ∃ l, m = l + 1 + 1 + 1 := ⟨m - 3, by omega⟩
  rw [iteratedDeriv_succ', h1, iteratedDeriv_succ', h2, iteratedDeriv_succ', deriv_const']
  simp

theorem radial_helmholtz (k : ℝ) (α β : ℂ) :
    HelmholtzSource k (radial α β) (radial (4 * β + (k : ℂ) ^ 2 * α) ((k : ℂ) ^ 2 * β)) := by
  have J : JetOn Set.univ 2 (pdFam (radial α β)) := jetOn_of_contDiffOn isOpen_univ (n := 2)
    (by rw [radial_eq]; exact (quadPoly_contDiff _ _ _ _ _ 2).contDiffOn)
  have := helmholtzSource_of_jet (k := k) J (φ := radial (4 * β + (k : ℂ) ^ 2 * α) ((k : ℂ) ^ 2 * β)) fun p => by
    simp only [pdFam, radial_eq, Function.iterate_succ, Function.iterate_zero, Function.comp_apply, id_eq, pd1_quadPoly, pd2_quadPoly]
    simp only [quadPoly]
    ring
  exact this

/-- the curve is the arc, or the solution is constant -/
def ExactOn (r : ℝ → ℝ) (β : ℂ) : Prop := (∃ R, r = fun _ => R) ∨ β = 0

theorem cauchyData_radial {α β : ℂ} {a : ℝ} {r : ℝ → ℝ} (h : ExactOn r β) (sid : Fin 3) (i : Fin 2) :
    ∃ A B : ℂ, cauchyData (radial α β) a r sid i = fun t : ℝ => A + B * (t : ℂ) ^ 2 := by
  have hcs : ∀ t : ℝ, ((cos t : ℝ) : ℂ) ^ 2 + ((sin t : ℝ) : ℂ) ^ 2 = 1 := fun t => by exact_mod_cast Real.cos_sq_add_sin_sq t
  have hval : ∀ ρ t : ℝ, radial α β (polarPoint ρ t) = α + β * (ρ : ℂ) ^ 2 := by
    intro ρ t
    simp only [radial, polarPoint]
    have := hcs t
    push_cast at this ⊢
    linear_combination β * (ρ : ℂ) ^ 2 * this
  fin_cases sid <;> fin_cases i
  · show ∃ A B : ℂ, (fun t => radial α β (polarPoint (r t) t)) = _
    simp only [hval]
    rcases h with ⟨R, rfl⟩ | rfl
    · exact ⟨α + β * (R : ℂ) ^ 2, 0, by funext t; ring⟩
    · exact ⟨α, 0, by funext t; ring⟩
  · show ∃ A B : ℂ, (fun t => fderiv ℝ (radial α β) (polarPoint (r t) t) (curveNormal r t)) = _
    rw [radial_eq]
    simp only [quadPoly_fderiv]
    rcases h with ⟨R, rfl⟩ | rfl
    · refine ⟨2 * β * ((R : ℂ) * (R / √(R ^ 2) : ℝ)), 0, ?_⟩
      funext t
      have e : curveNormal (fun _ => R) t = (R / √(R ^ 2) * cos t, R / √(R ^ 2) * sin t) := by
        unfold curveNormal
        have d1 : deriv (fun s => R * cos s) t = -(R * sin t) := by simp
        have d2 : deriv (fun s => R * sin s) t = R * cos t := by simp
        simp only [d1, d2]
        have e : (-(R * sin t)) ^ 2 + (R * cos t) ^ 2 = R ^ 2 := by
          linear_combination R ^ 2 * Real.sin_sq_add_cos_sq t
        rw [e]
        ext <;> simp only [] <;> ring
      rw [e]
      simp only [polarPoint]
      have := hcs t
      push_cast at this ⊢
      linear_combination 2 * β * (R : ℂ) * ((R : ℂ) / ((√(R ^ 2) : ℝ) : ℂ)) * this
    · exact ⟨0, 0, by funext t; simp⟩
  · exact ⟨α, β, by funext t; show radial α β (t, 0) = _; simp [radial]⟩
  · refine ⟨0, 0, ?_⟩
    funext t
    show fderiv ℝ (radial α β) (t, 0) (0, 1) = _
    rw [radial_eq, quadPoly_fderiv]
    simp
  · exact ⟨α, β, by funext t; exact hval t a⟩
  · refine ⟨0, 0, ?_⟩
    funext t
    show fderiv ℝ (radial α β) (polarPoint t a) (sin a, -cos a) = _
    rw [radial_eq, quadPoly_fderiv]
    simp only [polarPoint]
    push_cast
    ring

theorem cauchyData_radial_iter {α β : ℂ} {a : ℝ} {r : ℝ → ℝ} (h : ExactOn r β) (sid : Fin 3) (i : Fin 2) {m : ℕ} (hm : 3 ≤ m) (t : ℝ) :
    iteratedDeriv m (cauchyData (radial α β) a r sid i) t = 0 := by
  obtain ⟨A, B, e⟩ := cauchyData_radial (α := α) (a := a) h sid i
  rw [e]
  exact iteratedDeriv_quad A B hm t

/-- a positive lower bound of the eigenvalues on one grid -/
theorem exists_eigLower {n order : ℕ} (ho : order = 2 ∨ order = 4) {AD k : ℝ} (h : NoZeroEig n order AD k) :
    ∃ m, 0 < m ∧ EigLower n order AD k m := by
  rw [noZeroEig_iff ho] at h
  rcases Nat.eq_zero_or_pos n with rfl | hn
  · exact ⟨1, one_pos, (eigLower_iff ho _ _ _).2 fun p => p.elim0⟩
  have : Nonempty (Fin n × Fin n) := ⟨⟨0, hn⟩, ⟨0, hn⟩⟩
  obtain ⟨x, hx⟩ := Finite.exists_min fun z : Fin n × Fin n => |eigF (n + 1) order AD k (z.1 + 1) (z.2 + 1)|
  exact ⟨_, abs_pos.2 (h x.1 x.2), (eigLower_iff ho _ _ _).2 fun p q => hx (p, q)⟩

/-- the estimates of C81 and C82 for the solutions of this file -/
theorem approx_exact {name : String} {r : ℝ → ℝ} (hname : chooseBoundary name = .ok r) {k : ℝ} {α β : ℂ} (hβ : ExactOn r β)
    {iter : Iter} (hit : IsIter iter) {b : Brentq} (hb : BrentqSpec b) {n : ℕ} (hN : 16 ≤ n + 1) (hz : NoZeroEig n 4 probAD k)
    (hoff : ∀ (i j : ℤ) (t : ℝ), probA / 2 ≤ t → t ≤ 2 * π + probA / 2 → getCoord probAD (n + 1) i j ≠ polarPoint (r t) t)
    {eps : ℝ} (heps : 0 < eps) {source : Source} (hsrc : SrcOf source (radial (4 * β + (k : ℂ) ^ 2 * α) ((k : ℂ) ^ 2 * β)) 0) {p q : ℕ}
    {s : PSolver} (hs : psInit iter (mkEnv b (n + 1) probAD probA probR r) 4 k eps p q source = .ok s) :
    ShippedSolver s b n r k eps p q ∧ ∃ δ : ℝ → ℝ, δ 0 = 0 ∧ Approx iter n s (radial α β) 0 δ := by
  have hpi := pi_pos
  have T := chooseBoundary_tame hname
  have hAD : 0 < probAD := by unfold probAD; positivity
  have hr6 : ContDiff ℝ 6 r := by exact_mod_cast chooseBoundary_smooth hname 6
  set u := radial α β with hudef
  set φ := radial (4 * β + (k : ℂ) ^ 2 * α) ((k : ℂ) ^ 2 * β) with hφdef
  have hu : ContDiff ℝ 6 u := by rw [hudef, radial_eq]; exact_mod_cast quadPoly_contDiff _ _ _ _ _ 6
  have hφ : ContDiff ℝ 3 φ := by rw [hφdef, radial_eq]; exact_mod_cast quadPoly_contDiff _ _ _ _ _ 3
  have hpde : HelmholtzSource k u φ := radial_helmholtz k α β
  obtain ⟨K, L, X, L', B0, B0'⟩ := exists_srcBounds hu hφ k probA probR hr6 T.regular
  have B : Bounds u k probA probR r K 0 0 := ⟨B0.one, B0.k, B0.curve, B0.radius, B0.side,
    fun i j hij x _ _ => by rw [hudef, radial_eq, pdFam_quadPoly _ _ _ _ _ (by omega), norm_zero],
    fun sid i t _ => by rw [hudef, cauchyData_radial_iter hβ sid i (by norm_num), norm_zero]⟩
  have B' : SrcBounds φ probA r K 0 := ⟨
    fun i j hij x _ _ => by rw [hφdef, radial_eq, pdFam_quadPoly _ _ _ _ _ (by omega), norm_zero],
    fun i j hij x _ _ => by rw [hφdef, inPolar_radial, pdFam_quadPoly _ _ _ _ _ (by omega), norm_zero], B0'.d1, B0'.d2⟩
  have g := T.gentleAt hN
  have hready := ready_gentle hit hb hAD g T.regular (shipped_sides hN).1 (shipped_sides hN).2.1 (shipped_sides hN).2.2 hs
  obtain ⟨G, S⟩ := setup_shipped hit hb hN (Or.inr rfl) hname hz
  have hMp : G.Mplus ≠ ∅ := mplus_shipped T hN S
  obtain ⟨f, hf, hfz⟩ := C82_source hit hb hN T S hs hφ hsrc B.radius B'
  have hs' := hs
  rw [psInit_ok S.built] at hs'
  cases hs'
  set s : PSolver := ⟨mkEnv b (n + 1) probAD probA probR r, 4, k, eps, setupBasis p q, G,
    buildCache (mkEnv b (n + 1) probAD probA probR r) (G.allGamma 0), source⟩ with hsdef
  have hsc : probAD / (n + 1 : ℕ) * √2 ≤ 0.556 := shipped_scale (n + 1) hN
  have hδ0 : 0 ≤ probAD / (n + 1 : ℕ) * √2 := by positivity
  have hpos : ∀ t ∈ Set.Icc (probA / 2) (2 * π + probA / 2), 0 < r t := fun t ht => by
    have := T.lo t ht.1 ht.2
    norm_num at this; linarith
  have hside : ∀ nd ∈ s.G.unionGamma, ∀ x th, th ∈ Set.Icc (probA / 2) (2 * π + probA / 2) → x ≠ 0 → |x| ≤ probAD / (n + 1 : ℕ) * √2 →
      (th < probA ∧ dist2 (getCoord probAD (n + 1) nd.1 nd.2) (polarPoint probR probA) ≤ probAD / (n + 1 : ℕ) * √2 ∨
        2 * π < th ∧ dist2 (getCoord probAD (n + 1) nd.1 nd.2) (polarPoint probR (2 * π)) ≤ probAD / (n + 1 : ℕ) * √2) →
      getCoord probAD (n + 1) nd.1 nd.2 = move (polarPoint (r th) th) (evalNormal r th).1 (evalNormal r th).2 x →
      ((s.e.polar nd).1 < r (s.e.polar nd).2 ↔ x < 0) := by
    intro nd _ x th hth hx0 hx hcor hmv
    obtain ⟨p1, p2, p3, p4⟩ := env_polar (mkEnv b (n + 1) probAD probA probR r) g.apos (by show probA ≤ 4 * π; linarith [g.aπ]) nd
    have hcd : getCoord probAD (n + 1) nd.1 nd.2 = polarPoint ((mkEnv b (n + 1) probAD probA probR r).polar nd).1
      ((mkEnv b (n + 1) probAD probA probR r).polar nd).2 := p1.symm
    rw [hcd] at hcor hmv
    exact tame_side T hsc hth ⟨p3, p4.le⟩ p2 hx0 hx hcor hmv
  set d := 1.4 * (probAD / (n + 1 : ℕ) * √2) with hd
  have hd1 : d ≤ 1 := by rw [hd]; linarith
  have hd2 : probAD / (n + 1 : ℕ) * √2 ≤ d := by rw [hd]; linarith
  have hd3 : π * (probAD / (n + 1 : ℕ) * √2) / probR ≤ d := by
    have hpi' := pi_lt_d4
    unfold probR
    rw [hd, div_le_iff₀ (by norm_num)]
    have := mul_le_mul_of_nonneg_right hpi'.le hδ0
    linarith
  have hall : ∀ {c0 c1 : List ℂ}, (XiSrc.full c0 c1).Valid s.bas.bDesc → ∀ {ε : ℝ}, NearExact s (.full c0 c1) u ε → _ :=
    fun {c0 c1} hv {ε} hex => entries_sharp hit hb (Nat.succ_pos n) hAD g hr6 T.regular heps hs hready hu hφ hpde hsrc B B'
      (c0 := c0) (c1 := c1) hv hex hd1 hd2 hd3 hpos (fun nd _ t ht => hoff nd.1 nd.2 t ht.1 ht.2) hside
  refine ⟨⟨rfl, rfl, rfl, rfl, hMp⟩, fun ε => extS K 0 0 ε d + srcS K 0 d 0, by simp [extS, srcS], ⟨rfl, S, hready, ?_,
    ⟨f, hf, fun q hq => ?_⟩, fun c0 c1 l0 l1 ε hex => ?_⟩⟩
  · set z : List ℂ := List.replicate s.bas.bDesc.length 0
    obtain ⟨ε0, h0⟩ := exists_nearExact s (.full z z) hu (by exact hr6) (by exact T.regular)
    obtain ⟨extF, -, h, -⟩ := hall (c0 := z) (c1 := z) ⟨by simp [z], by simp [z]⟩ h0
    exact ⟨extF, h⟩
  · have := helmholtz_pdFam_source (hu.of_le (by norm_num)) hpde ((mkEnv b (n + 1) probAD probA probR r).coord q)
    refine ((le_of_eq (congrArg (fun z => ‖fullNode f q.1 q.2 - z‖) this)).trans (hfz q hq)).trans ?_
    simp
  · obtain ⟨-, m, -, he1, he2⟩ := hall (c0 := c0) (c1 := c1) ⟨l0.ge, l1.ge⟩ hex
    exact ⟨m, he1, he2⟩

/-- the defect is zero exactly when the extension is the trace of the regular part -/
theorem trace_of_defect {iter : Iter} {n : ℕ} {s : PSolver} (S : Setup iter s.e n s.order s.k s.G) {ap : Arr n} {c0 c1 ext : List ℂ} {w : Arr n}
    (h1 : extendBoundary s (.full c0 c1) = .ok ext) (hl : ext.length = s.G.unionGamma.length)
    (h2 : regularPart iter s.e s.order s.k s.G ext ap = .ok w) (hd : defect n iter s ap c0 c1 = .ok 0) :
    getTrace s.G.unionGamma w = .ok ext := by
  have ht := getTrace_ok s.G.unionGamma S.gamR w
  unfold defect at hd
  rw [h1, ok_bind, h2, ok_bind, ht, ok_bind, pure_eq_ok] at hd
  have hd := Except.ok.inj hd
  rw [Finset.sum_eq_zero_iff_of_nonneg fun _ _ => by positivity] at hd
  rw [ht]
  congr 1
  refine List.ext_getElem (by simp [hl]) fun l ha hb => ?_
  have := hd l (by rw [Finset.mem_range, ← hl]; exact hb)
  rw [List.getD_eq_getElem _ _ ha, List.getD_eq_getElem _ _ hb] at this
  exact sub_eq_zero.1 (norm_eq_zero.1 (pow_eq_zero_iff (two_ne_zero) |>.1 this))

theorem list_eq_of_getD {l1 l2 : List ℂ} (h : l1.length = l2.length) (hd : ∀ l < l1.length, l1.getD l 0 - l2.getD l 0 = 0) : l1 = l2 := by
  refine List.ext_getElem h fun l ha hb => ?_
  have := hd l ha
  rw [List.getD_eq_getElem _ _ ha, List.getD_eq_getElem _ _ hb] at this
  exact sub_eq_zero.1 this

/-- what C95 says of a solver `s` whose solution is `u`: `c0`, `c1` are the coefficients the program fits to the Dirichlet and to the Neumann
data of `u`, `ap` is its particular solution -/
structure ExactRun (iter : Iter) (n : ℕ) (s : PSolver) (r : ℝ → ℝ) (u : ℝ × ℝ → ℂ) (fit : Chebfit) (ap : Arr n) (c0 c1 : List ℂ) : Prop where
  particular : initApSolF n iter s = .ok ap
  dirichlet : calcC0 s.eps probA probR fit (chebRoots 1024) s.bas (fun x sid => cauchyData u probA r sid 0 x) = .ok c0
  neumann : calcC1Exact s.eps probA probR fit (chebRoots 1024) s.bas (fun x sid => cauchyData u probA r sid 1 x) = .ok c1
  /-- the extension of the data is the solution at every node of the discrete boundary -/
  ext : extendBoundary s (.full c0 c1) = .ok (s.G.unionGamma.map fun nd => u (getCoord probAD (n + 1) nd.1 nd.2))
  /-- the solver returns the solution at every node of `Nplus` -/
  sol : ∃ w : Arr n, regularPart iter s.e s.order s.k s.G (s.G.unionGamma.map fun nd => u (getCoord probAD (n + 1) nd.1 nd.2)) ap = .ok w ∧
    ∀ nd ∈ s.G.Nplus, node w nd.1 nd.2 = u (getCoord probAD (n + 1) nd.1 nd.2)
  /-- the linear system of the program is solved exactly by `c1` -/
  system : ∃ Q1 rhs, getVar iter s ap c0 = .ok (Q1, rhs) ∧ matVec s.G.unionGamma.length Q1 c1 = .ok rhs
  /-- every run solves it exactly, and its result has the extension as its trace -/
  run : ∀ {lstsq : Lstsq}, IsLstsq lstsq → ∀ ex : Option (ℝ → ℝ → ℂ), ∃ res : RunResult n,
    psRun iter s ap fit (chebRoots 1024) (fun x sid => cauchyData u probA r sid 0 x) lstsq ex = .ok res ∧ res.c0 = c0 ∧
    (∀ Q1 rhs, getVar iter s ap c0 = .ok (Q1, rhs) → matVec s.G.unionGamma.length Q1 res.c1 = .ok rhs) ∧
    getTrace s.G.unionGamma res.uAct = .ok res.ext ∧
    (res.c1 = c1 → (∀ nd ∈ s.G.Nplus, node res.uAct nd.1 nd.2 = u (getCoord probAD (n + 1) nd.1 nd.2)) ∧
      (ex = some (fun x y => u (x, y)) → res.error = some 0))

/-- **C95** the method is exact for `α + β (x² + y²)`: on the arc for all `α`, `β`, on the other boundaries for constants. -/
theorem C95_exact {name : String} {r : ℝ → ℝ} (hname : chooseBoundary name = .ok r) {k : ℝ} {α β : ℂ} (hβ : ExactOn r β)
    {iter : Iter} (hit : IsIter iter) {b : Brentq} (hb : BrentqSpec b) {n : ℕ} (hN : 16 ≤ n + 1) (hz : NoZeroEig n 4 probAD k)
    (hoff : ∀ (i j : ℤ) (t : ℝ), probA / 2 ≤ t → t ≤ 2 * π + probA / 2 → getCoord probAD (n + 1) i j ≠ polarPoint (r t) t)
    {eps : ℝ} (heps : 0 < eps) {source : Source} (hsrc : SrcOf source (radial (4 * β + (k : ℂ) ^ 2 * α) ((k : ℂ) ^ 2 * β)) 0) {p q : ℕ}
    (hp : 4 ≤ p) (hq : 4 ≤ q) (hp' : p ≤ 1024) (hq' : q ≤ 1024)
    {s : PSolver} (hs : psInit iter (mkEnv b (n + 1) probAD probA probR r) 4 k eps p q source = .ok s) {fit : Chebfit} (hfit : IsChebfit fit) :
    ∃ ap c0 c1, ExactRun iter n s r (radial α β) fit ap c0 c1 := by
  have hpi := pi_pos
  have hAD : 0 < probAD := by unfold probAD; positivity
  have Tm := chooseBoundary_tame hname
  obtain ⟨hS, δ, hδ, A⟩ := approx_exact hname hβ hit hb hN hz hoff heps hsrc hs
  have ea : s.e.a = probA := by rw [hS.env]; rfl
  have eR : s.e.R = probR := by rw [hS.env]; rfl
  have er : s.e.evalR = r := by rw [hS.env]; rfl
  have eAD : s.e.AD = probAD := by rw [hS.env]; rfl
  have ec : ∀ nd : Node, s.e.coord nd = getCoord probAD (n + 1) nd.1 nd.2 := fun nd => by rw [hS.env]; rfl
  have ek : s.k = k := hS.k
  have hbl : s.bas.bDesc.length = p + 2 * q := by rw [hS.bas, C40_length]
  have hB : s.bas.bDesc ≠ [] := by
    intro h
    rw [h] at hbl
    simp at hbl
    omega
  have hS4 : Setup iter s.e n s.order s.k s.G := by rw [A.order]; exact A.setup
  set u := radial α β with hu
  have hsm : ∀ m : ℕ, ContDiff ℝ m u := fun m => by rw [hu, radial_eq]; exact quadPoly_contDiff _ _ _ _ _ m
  obtain ⟨c0, c1, l0, l1, h0, h1, hex⟩ := C84_data (s := s) (by rw [hS.eps]; exact heps) (by rw [ea]; unfold probA; linarith)
    (by rw [eR]; unfold probR; norm_num) (by rw [ea, eR, hS.eps]; exact halfWidth_shipped heps) hfit hp hq hp' hq' hS.bas (hsm _)
    (by rw [er]; exact chooseBoundary_smooth hname _) (by rw [er]; exact Tm.regular) (M := fun _ _ => 0)
    (fun sid i x _ => by
      have h3 : 3 ≤ nBasisBySid p q sid := by unfold nBasisBySid; split <;> omega
      rw [er, hu, cauchyData_radial_iter hβ sid i h3, norm_zero]) (ε := 0) (fun sid i => by simp [dataErr])
  rw [ea, eR, er] at h0 h1
  have l0' := l0.trans hbl.symm
  have l1' := l1.trans hbl.symm
  obtain ⟨m, hm, hlow⟩ := exists_eigLower (Or.inr rfl) hz
  rw [← eAD, ← ek] at hlow
  have hM6 : ∀ i j, i + j = 6 → ∀ x y : ℝ, |x| ≤ s.e.AD / 2 → |y| ≤ s.e.AD / 2 → ‖pdFam u i j (x, y)‖ ≤ 0 := fun i j hij x y _ _ => by
    rw [hu, radial_eq, pdFam_quadPoly _ _ _ _ _ (by omega), norm_zero]
  obtain ⟨f, hf, hfz⟩ := A.src
  obtain ⟨ext, he1, he2, he3⟩ := A.ext c0 c1 l0' l1' 0 hex
  have hext : ext = s.G.unionGamma.map fun nd => u (getCoord probAD (n + 1) nd.1 nd.2) := by
    refine List.ext_getElem (by simp [he2]) fun l ha hb => ?_
    have := he3 l (by rw [← he2]; exact ha) ha
    rw [hδ, norm_le_zero_iff, sub_eq_zero] at this
    rw [this, List.getElem_map, ec]
  have hJ := jet_of_contDiff (n := 6) (g := u) (hsm 6)
  obtain ⟨ap, w, g1, g2, -, g4⟩ := C80_rate A.setup (by rw [eAD]; exact hAD) hm hlow hJ (M := 0) (T := 0) le_rfl (δ := 0) le_rfl hM6 f hfz
    ext he2 (fun l => by rw [← hδ]; exact he3 l l.2 (by rw [he2]; exact l.2))
  have hap : initApSolF n iter s = .ok ap := by
    unfold initApSolF
    rw [hf, ok_bind, A.order]
    exact g1
  have hw : ∀ nd ∈ s.G.Nplus, node w nd.1 nd.2 = u (getCoord probAD (n + 1) nd.1 nd.2) := fun nd hnd => by
    have := g4 nd hnd
    simp only [mul_zero, zero_mul, add_zero, zero_div] at this
    rw [norm_le_zero_iff, sub_eq_zero] at this
    rw [this, ← ec]
    rfl
  rw [← A.order] at g2
  obtain ⟨d, hd, hdb⟩ := C84_defect A (by rw [eAD]; exact hAD) hm hlow (hsm 6) hM6 le_rfl hap l0' l1' hex hδ.ge
  have hd0 : d = 0 := by
    have hnn : 0 ≤ d := by
      unfold defect at hd
      rw [he1, ok_bind, g2, ok_bind, getTrace_ok s.G.unionGamma hS4.gamR w, ok_bind, pure_eq_ok] at hd
      rw [← Except.ok.inj hd]
      positivity
    rw [hδ] at hdb
    simp only [mul_zero, zero_mul, add_zero, zero_div] at hdb
    exact (Real.sqrt_eq_zero hnn).1 (le_antisymm hdb (Real.sqrt_nonneg _))
  rw [hd0] at hd
  obtain ⟨extF, hF⟩ := A.inhomo
  have solves : ∀ {c : List ℂ}, c.length = s.bas.bDesc.length → ∀ {e' : List ℂ} {w' : Arr n}, extendBoundary s (.full c0 c) = .ok e' →
      regularPart iter s.e s.order s.k s.G e' ap = .ok w' → getTrace s.G.unionGamma w' = .ok e' →
      ∃ Q1 rhs, getVar iter s ap c0 = .ok (Q1, rhs) ∧ matVec s.G.unionGamma.length Q1 c = .ok rhs := by
    intro c hc e' w' k1 k2 k3
    obtain ⟨Q1, rhs, v, e'', tr, w'', hv, hq, he, hw, ht, lv, lr, le, lt, -, hres⟩ := C23_residual hS4 A.ready hB hF ap l0' hc
    obtain rfl : e'' = e' := Except.ok.inj (he.symm.trans k1)
    obtain rfl : w'' = w' := Except.ok.inj (hw.symm.trans k2)
    obtain rfl : tr = e'' := Except.ok.inj (ht.symm.trans k3)
    refine ⟨Q1, rhs, hv, ?_⟩
    rw [hq, list_eq_of_getD (l1 := v) (l2 := rhs) (lv.trans lr.symm) fun l hl => ?_]
    rw [hres l (by rw [← lv]; exact hl), sub_self]
  refine ⟨ap, c0, c1, hap, h0, h1, hext ▸ he1, ⟨w, hext ▸ g2, hw⟩, solves l1' he1 g2 (trace_of_defect hS4 he1 he2 g2 hd), ?_⟩
  intro lstsq hlsq ex
  obtain ⟨ap', res, r1, r2, r3, r4, -, r6, d', hd', hmin⟩ := C23_run hS4 A.ready (by omega : 1 ≤ p) (by omega : 1 ≤ q) hS.bas hF hf hfit
    hlsq (chebRoots 1024) (fun x sid => cauchyData u probA r sid 0 x) hS.nonempty ex
  obtain rfl : ap' = ap := Except.ok.inj (r1.symm.trans hap)
  obtain ⟨-, q2, q3, q4⟩ := run_parts hS4 A.ready (by omega : 1 ≤ p) (by omega : 1 ≤ q) hS.bas hF hfit hlsq r2
  rw [ea, eR] at r3
  obtain rfl : c0 = res.c0 := Except.ok.inj (h0.symm.trans r3)
  obtain ⟨Q1, rhs, v, e'', tr, w'', -, -, he, hw', ht, -, -, le, -, -, -⟩ := C23_residual hS4 A.ready hB hF ap' l0' q2
  obtain rfl : e'' = res.ext := Except.ok.inj (he.symm.trans q3)
  have hd'0 : d' = 0 := by
    obtain ⟨d2, hd2, hle⟩ := hmin c1 l1
    obtain rfl : d2 = 0 := Except.ok.inj (hd2.symm.trans hd)
    refine le_antisymm hle ?_
    unfold defect at hd'
    rw [q3, ok_bind, q4, ok_bind, getTrace_ok s.G.unionGamma hS4.gamR _, ok_bind, pure_eq_ok] at hd'
    rw [← Except.ok.inj hd']
    positivity
  rw [hd'0] at hd'
  have htr := trace_of_defect hS4 q3 le q4 hd'
  refine ⟨res, r2, rfl, fun Q1 rhs hv => ?_, htr, ?_⟩
  · obtain ⟨Q1', rhs', hv', hq'⟩ := solves q2 q3 q4 htr
    rw [hv] at hv'
    cases hv'
    exact hq'
  intro hc
  rw [hc, he1] at q3
  obtain rfl := Except.ok.inj q3
  obtain rfl : w = res.uAct := Except.ok.inj (g2.symm.trans q4)
  refine ⟨hw, ?_⟩
  rintro rfl
  obtain ⟨m, hm1, -, a, b', hab, hm2⟩ := ((C65_eval_error hit hS4.hN hS4.built res.uAct).2 (fun x y => u (x, y))).2 hS.nonempty
  have := Except.ok.inj (r6.symm.trans hm1)
  rw [this, hm2]
  have hn := hw _ ((hS4.core.np ((a : ℤ) + 1, (b' : ℤ) + 1)).2 ⟨_, hab, by unfold Reach; simp⟩)
  have hn' : res.uAct a b' = u (getCoord probAD (n + 1) (((a : ℤ) + 1 : ℤ) : ℝ) (((b' : ℤ) + 1 : ℤ) : ℝ)) := by
    rw [← hn]
    exact (node_at res.uAct a b').symm
  rw [hn', ec]
  show some ‖u _ - u _‖ = some 0
  rw [sub_self, norm_zero]

/-- **C95** when the system has only one solution, every least-squares solver gives the exact solution, and the error the program prints is 0. -/
theorem C95_determined {iter : Iter} {n : ℕ} {s : PSolver} {r : ℝ → ℝ} {u : ℝ × ℝ → ℂ} {fit : Chebfit} {ap : Arr n} {c0 c1 : List ℂ}
    (E : ExactRun iter n s r u fit ap c0 c1)
    (hinj : ∀ Q1 rhs, getVar iter s ap c0 = .ok (Q1, rhs) → ∀ c, matVec s.G.unionGamma.length Q1 c = .ok rhs → c = c1)
    {lstsq : Lstsq} (hlsq : IsLstsq lstsq) :
    ∃ res : RunResult n, psRun iter s ap fit (chebRoots 1024) (fun x sid => cauchyData u probA r sid 0 x) lstsq
        (some fun x y => u (x, y)) = .ok res ∧
      (∀ nd ∈ s.G.Nplus, node res.uAct nd.1 nd.2 = u (getCoord probAD (n + 1) nd.1 nd.2)) ∧ res.error = some 0 := by
  obtain ⟨Q1, rhs, hv, -⟩ := E.system
  obtain ⟨res, h1, -, h3, -, h5⟩ := E.run hlsq (some fun x y => u (x, y))
  obtain ⟨h6, h7⟩ := h5 (hinj Q1 rhs hv _ (h3 Q1 rhs hv))
  exact ⟨res, h1, h6, h7 rfl⟩

theorem psRun_solveVar {n : ℕ} {iter : Iter} {s : PSolver} {ap : Arr n} {fit : Chebfit} {roots : List ℝ} {bc : ℝ → Fin 3 → ℂ}
    {lstsq : Lstsq} {ex : Option (ℝ → ℝ → ℂ)} {res : RunResult n} (h : psRun iter s ap fit roots bc lstsq ex = .ok res) :
    solveVar lstsq iter s ap res.c0 = .ok res.c1 := by
  unfold psRun at h
  rcases h1 : calcC0 s.eps s.e.a s.e.R fit roots s.bas bc with er | c0
  · rw [h1] at h; cases h
  rw [h1, ok_bind] at h
  rcases h2 : solveVar lstsq iter s ap c0 with er | c1
  · rw [h2] at h; cases h
  rw [h2, ok_bind] at h
  rcases h3 : extendBoundary s (.full c0 c1) with er | ext
  · rw [h3] at h; cases h
  rw [h3, ok_bind] at h
  rcases h4 : regularPart iter s.e s.order s.k s.G ext ap with er | w
  · rw [h4] at h; cases h
  rw [h4, ok_bind] at h
  rcases h5 : evalError iter s.e s.G ex w with er | e
  · rw [h5] at h; cases h
  rw [h5, ok_bind, pure_eq_ok] at h
  rw [← Except.ok.inj h]
  exact h2

/-- **C95** some least-squares solver gives the exact solution: with it the error the program prints is 0. -/
theorem C95_attained {iter : Iter} {n : ℕ} {s : PSolver} {r : ℝ → ℝ} {u : ℝ × ℝ → ℂ} {fit : Chebfit} {ap : Arr n} {c0 c1 : List ℂ}
    (E : ExactRun iter n s r u fit ap c0 c1) : ∃ lstsq : Lstsq, IsLstsq lstsq ∧
      ∃ res : RunResult n, psRun iter s ap fit (chebRoots 1024) (fun x sid => cauchyData u probA r sid 0 x) lstsq
        (some fun x y => u (x, y)) = .ok res ∧
      (∀ nd ∈ s.G.Nplus, node res.uAct nd.1 nd.2 = u (getCoord probAD (n + 1) nd.1 nd.2)) ∧ res.error = some 0 := by
  classical
  obtain ⟨Q1, rhs, hv, hq⟩ := E.system
  obtain ⟨L, hL⟩ := exists_isLstsq
  have hl : Q1.length = c1.length := by
    unfold matVec at hq
    by_contra h
    rw [if_neg h] at hq
    cases hq
  have hr : rhs.length = s.G.unionGamma.length := by
    unfold matVec at hq
    rw [if_pos hl, pure_eq_ok] at hq
    rw [← Except.ok.inj hq]
    simp
  have h0 : sysResidual rhs.length Q1 rhs c1 = 0 := by
    unfold sysResidual
    refine sum_eq_zero fun l hl' => ?_
    rw [hr] at hl'
    rw [← matVec_getD hq (mem_range.1 hl'), sub_self, norm_zero]
    simp
  set L' : Lstsq := fun A b => if A = Q1 ∧ b = rhs then c1 else L A b with hL'
  have hI : IsLstsq L' := by
    intro A b hA
    by_cases h : A = Q1 ∧ b = rhs
    · obtain ⟨rfl, rfl⟩ := h
      have e : L' A b = c1 := if_pos ⟨rfl, rfl⟩
      rw [e, h0]
      exact ⟨hl.symm, fun c _ => by unfold sysResidual; positivity⟩
    · have e : L' A b = L A b := if_neg h
      rw [e]
      exact hL A b hA
  obtain ⟨res, h1, h2, -, -, h5⟩ := E.run hI (some fun x y => u (x, y))
  have hc : res.c1 = c1 := by
    have := psRun_solveVar h1
    unfold solveVar at this
    rw [h2, hv, ok_bind, pure_eq_ok] at this
    rw [← Except.ok.inj this]
    exact if_pos ⟨rfl, rfl⟩
  obtain ⟨h6, h7⟩ := h5 hc
  exact ⟨L', hI, res, h1, h6, h7 rfl⟩

/-- **C95** the source methods of a SymPy problem with a constant right-hand side meet the hypothesis on the source: a constant solution with
any wave number, and `α + β (x² + y²)` for the Poisson equation (`k = 0`). -/
theorem C95_source {k : ℝ} {α β : ℂ} (h : k = 0 ∨ β = 0) : SrcOf (spSource probAD fun _ _ => 4 * β + (k : ℂ) ^ 2 * α)
    (radial (4 * β + (k : ℂ) ^ 2 * α) ((k : ℂ) ^ 2 * β)) 0 := by
  have hz : (k : ℂ) ^ 2 * β = 0 := by rcases h with rfl | rfl <;> simp
  rw [hz]
  have hpi := pi_pos
  have hpi' := pi_lt_d4
  have hc : ContDiff ℝ 3 (radial (4 * β + (k : ℂ) ^ 2 * α) 0) := by rw [radial_eq]; exact_mod_cast quadPoly_contDiff _ _ _ _ _ 3
  have key := C82_sympy hc (f := fun _ _ => 4 * β + (k : ℂ) ^ 2 * α) (fun r th => by simp [radial]) (AD := probAD)
    (by unfold probAD; positivity) (by unfold probAD; linarith) (L := 0)
    (fun i j hij x _ _ => by rw [radial_eq, pdFam_quadPoly _ _ _ _ _ (by omega), norm_zero])
  have e : pdFam (radial (4 * β + (k : ℂ) ^ 2 * α) 0) 2 0 (-(probAD / 10000), 0) = 0 := by
    simp only [pdFam, radial_eq, Function.iterate_succ, Function.iterate_zero, Function.comp_apply, id_eq, pd1_quadPoly, mul_zero, quadPoly_zero]
  rw [e] at key
  simpa using key

/-- the hypotheses of C95 hold for `u = 2 + 3 (x² + y²)` and the Poisson equation on the arc, 32 by 32 grid, seven and five basis functions,
with the source methods of a SymPy problem -/
example {iter : Iter} (hit : IsIter iter) {b : Brentq} (hb : BrentqSpec b) {fit : Chebfit} (hfit : IsChebfit fit) :
    ∃ (r : ℝ → ℝ) (s : PSolver), chooseBoundary "arc" = .ok r ∧
      psInit iter (mkEnv b (31 + 1) probAD probA probR r) 4 0 (1 / 1000) 7 5 (spSource probAD fun _ _ => 4 * 3 + ((0 : ℝ) : ℂ) ^ 2 * 2) = .ok s ∧
      ∃ ap c0 c1, ExactRun iter 31 s r (radial 2 3) fit ap c0 c1 := by
  have hz : NoZeroEig 31 4 probAD 0 := by
    obtain ⟨e, he, -, hneg⟩ := C15_eigenvals (n := 31) (order := 4) (Or.inr rfl) probAD 0
    intro e' he' p q
    rw [he] at he'; cases he'
    exact (hneg rfl (by have := pi_pos; unfold probAD; positivity) p q).ne
  obtain ⟨r, hr⟩ : ∃ r, chooseBoundary "arc" = .ok r := ⟨_, rfl⟩
  have hr' : r = fun _ => probR := (Except.ok.inj hr).symm
  obtain ⟨G, S⟩ := setup_shipped hit hb (n := 31) (by norm_num) (Or.inr rfl) hr hz
  refine ⟨r, _, hr, psInit_ok S.built, ?_⟩
  exact C95_exact hr (Or.inl ⟨_, hr'⟩) hit hb (by norm_num) hz (fun i j t h1 h2 => C79_off_grid (by decide) hr _ i j h1 h2) (by norm_num)
    (C95_source (Or.inl rfl)) (by norm_num) (by norm_num) (by norm_num) (by norm_num) (psInit_ok S.built) hfit

/-- … and for the constant solution 5 with the wave number of the smooth problems on `sine7` -/
example {iter : Iter} (hit : IsIter iter) {b : Brentq} (hb : BrentqSpec b) {fit : Chebfit} (hfit : IsChebfit fit) :
    ∃ (r : ℝ → ℝ) (s : PSolver), chooseBoundary "sine7" = .ok r ∧
      psInit iter (mkEnv b (31 + 1) probAD probA probR r) 4 smoothK (1 / 1000) 12 6
        (spSource probAD fun _ _ => 4 * 0 + ((smoothK : ℝ) : ℂ) ^ 2 * 5) = .ok s ∧
      ∃ ap c0 c1, ExactRun iter 31 s r (radial 5 0) fit ap c0 c1 ∧ ∃ lstsq : Lstsq, IsLstsq lstsq ∧
      ∃ res : RunResult 31, psRun iter s ap fit (chebRoots 1024) (fun x sid => cauchyData (radial 5 0) probA r sid 0 x) lstsq
        (some fun x y => radial 5 0 (x, y)) = .ok res ∧ res.error = some 0 := by
  have hz : NoZeroEig 31 4 probAD smoothK := (C78_shipped 31 (order := 4) (Or.inr rfl)).1
  obtain ⟨r, hr⟩ : ∃ r, chooseBoundary "sine7" = .ok r := ⟨_, rfl⟩
  obtain ⟨G, S⟩ := setup_shipped hit hb (n := 31) (by norm_num) (Or.inr rfl) hr hz
  obtain ⟨ap, c0, c1, E⟩ := C95_exact hr (Or.inr rfl) hit hb (by norm_num) hz (fun i j t h1 h2 => C79_off_grid (by decide) hr _ i j h1 h2)
    (by norm_num) (C95_source (Or.inr rfl)) (by norm_num) (by norm_num) (by norm_num) (by norm_num)
    (psInit_ok (eps := 1 / 1000) (nc := 12) (nr := 6) S.built) hfit
  obtain ⟨L, h1, res, h2, -, h3⟩ := C95_attained E
  exact ⟨r, _, hr, psInit_ok S.built, ap, c0, c1, E, L, h1, res, h2, h3⟩

end Pot
