import Verif.Model.SympyProblem
import Verif.Props.Nodes
import Verif.Proofs.Polar

/-! # C57, C58: the source of a SymPy problem -/

namespace Pot
open Spec Real Filter Topology

section
variable {Ω : Set (ℝ × ℝ)} {F : ℕ → ℕ → ℝ × ℝ → ℂ} {f : ℝ → ℝ → ℂ} {r th : ℝ}

/-- first derivatives of a function given in polar coordinates, at all points near `(r, th)` -/
theorem polar_first (hF : JetOn Ω 2 F) (hp : polarPoint r th ∈ Ω)
    (hf : ∀ᶠ q in 𝓝 (r, th), f q.1 q.2 = F 0 0 (polarPoint q.1 q.2)) :
    ∀ᶠ q in 𝓝 (r, th), polarPoint q.1 q.2 ∈ Ω ∧
      spDFr f q.1 q.2 = cos q.2 * F 1 0 (polarPoint q.1 q.2) + sin q.2 * F 0 1 (polarPoint q.1 q.2) ∧
      spDFth f q.1 q.2 = -(q.1 * sin q.2) * F 1 0 (polarPoint q.1 q.2) + q.1 * cos q.2 * F 0 1 (polarPoint q.1 q.2) := by
  have hc : Continuous fun q : ℝ × ℝ => polarPoint q.1 q.2 := by unfold polarPoint; fun_prop
  have hΩ : ∀ᶠ q in 𝓝 (r, th), polarPoint q.1 q.2 ∈ Ω := hc.continuousAt.eventually_mem (hF.isOpen.mem_nhds hp)
  filter_upwards [hΩ, eventually_eventually_nhds.2 hf] with q hq hfq
  refine ⟨hq, ?_, ?_⟩
  · have hx : HasDerivAt (fun ρ : ℝ => ρ * cos q.2) (cos q.2) q.1 := by simpa using (hasDerivAt_id' q.1).mul_const (cos q.2)
    have hy : HasDerivAt (fun ρ : ℝ => ρ * sin q.2) (sin q.2) q.1 := by simpa using (hasDerivAt_id' q.1).mul_const (sin q.2)
    have h := JetOn.along hF (i := 0) (j := 0) (by norm_num) hx hy hq
    have he : (fun ρ => f ρ q.2) =ᶠ[𝓝 q.1] fun ρ => F 0 0 (ρ * cos q.2, ρ * sin q.2) := by
      have hm : Tendsto (fun ρ : ℝ => (ρ, q.2)) (𝓝 q.1) (𝓝 q) := Continuous.tendsto' (by fun_prop) _ _ rfl
      exact hm.eventually hfq
    exact (h.congr_of_eventuallyEq he).deriv
  · have hx : HasDerivAt (fun t : ℝ => q.1 * cos t) (-(q.1 * sin q.2)) q.2 :=
      ((hasDerivAt_cos q.2).const_mul q.1).congr_deriv (by ring)
    have hy : HasDerivAt (fun t : ℝ => q.1 * sin t) (q.1 * cos q.2) q.2 := (hasDerivAt_sin q.2).const_mul q.1
    have h := JetOn.along hF (i := 0) (j := 0) (by norm_num) hx hy hq
    have he : (fun t => f q.1 t) =ᶠ[𝓝 q.2] fun t => F 0 0 (q.1 * cos t, q.1 * sin t) := by
      have hm : Tendsto (fun t : ℝ => (q.1, t)) (𝓝 q.2) (𝓝 q) := Continuous.tendsto' (by fun_prop) _ _ rfl
      exact hm.eventually hfq
    refine ((h.congr_of_eventuallyEq he).deriv).trans ?_
    simp only [polarPoint]
    push_cast
    ring

/-- second derivatives of a function given in polar coordinates -/
theorem polar_second (hF : JetOn Ω 2 F) (hp : polarPoint r th ∈ Ω)
    (hf : ∀ᶠ q in 𝓝 (r, th), f q.1 q.2 = F 0 0 (polarPoint q.1 q.2)) :
    let p := polarPoint r th
    let c : ℂ := cos th
    let s : ℂ := sin th
    spD2Fr f r th = c ^ 2 * F 2 0 p + 2 * c * s * F 1 1 p + s ^ 2 * F 0 2 p ∧
    spD2Frth f r th = -s * F 1 0 p + c * F 0 1 p + r * (-(c * s) * F 2 0 p + (c ^ 2 - s ^ 2) * F 1 1 p + c * s * F 0 2 p) ∧
    spD2Fth f r th = -r * (c * F 1 0 p + s * F 0 1 p) + (r : ℂ) ^ 2 * (s ^ 2 * F 2 0 p - 2 * c * s * F 1 1 p + c ^ 2 * F 0 2 p) := by
  intro p c s
  have h1 := polar_first hF hp hf
  have hcr : Tendsto (fun ρ : ℝ => (ρ, th)) (𝓝 r) (𝓝 (r, th)) := Continuous.tendsto' (by fun_prop) _ _ rfl
  have hct : Tendsto (fun t : ℝ => (r, t)) (𝓝 th) (𝓝 (r, th)) := Continuous.tendsto' (by fun_prop) _ _ rfl
  have hxr : HasDerivAt (fun ρ : ℝ => ρ * cos th) (cos th) r := by simpa using (hasDerivAt_id' r).mul_const (cos th)
  have hyr : HasDerivAt (fun ρ : ℝ => ρ * sin th) (sin th) r := by simpa using (hasDerivAt_id' r).mul_const (sin th)
  have hxt : HasDerivAt (fun t : ℝ => r * cos t) (-(r * sin th)) th :=
    ((hasDerivAt_cos th).const_mul r).congr_deriv (by ring)
  have hyt : HasDerivAt (fun t : ℝ => r * sin t) (r * cos th) th := (hasDerivAt_sin th).const_mul r
  have hcos : HasDerivAt (fun t : ℝ => ((cos t : ℝ) : ℂ)) ((-sin th : ℝ) : ℂ) th := (hasDerivAt_cos th).ofReal_comp
  have hsin : HasDerivAt (fun t : ℝ => ((sin t : ℝ) : ℂ)) ((cos th : ℝ) : ℂ) th := (hasDerivAt_sin th).ofReal_comp
  have a10 := JetOn.along hF (i := 1) (j := 0) (by norm_num) hxr hyr hp
  have a01 := JetOn.along hF (i := 0) (j := 1) (by norm_num) hxr hyr hp
  have b10 := JetOn.along hF (i := 1) (j := 0) (by norm_num) hxt hyt hp
  have b01 := JetOn.along hF (i := 0) (j := 1) (by norm_num) hxt hyt hp
  refine ⟨?_, ?_, ?_⟩
  · have he : (fun ρ => spDFr f ρ th) =ᶠ[𝓝 r] fun ρ => ((cos th : ℝ) : ℂ) * F 1 0 (ρ * cos th, ρ * sin th)
        + ((sin th : ℝ) : ℂ) * F 0 1 (ρ * cos th, ρ * sin th) := by
      filter_upwards [hcr.eventually h1] with ρ hρ
      exact hρ.2.1
    have := ((((a10.const_mul ((cos th : ℝ) : ℂ)).fun_add (a01.const_mul ((sin th : ℝ) : ℂ)))).congr_of_eventuallyEq he).deriv
    refine this.trans ?_
    simp only [p, c, s, polarPoint]
    norm_num
    ring
  · have he : (fun t => spDFr f r t) =ᶠ[𝓝 th] fun t => ((cos t : ℝ) : ℂ) * F 1 0 (r * cos t, r * sin t)
        + ((sin t : ℝ) : ℂ) * F 0 1 (r * cos t, r * sin t) := by
      filter_upwards [hct.eventually h1] with t ht
      exact ht.2.1
    have := (((hcos.fun_mul b10).fun_add (hsin.fun_mul b01)).congr_of_eventuallyEq he).deriv
    refine this.trans ?_
    simp only [p, c, s, polarPoint]
    push_cast
    norm_num
    ring
  · have he : (fun t => spDFth f r t) =ᶠ[𝓝 th] fun t => (r : ℂ) * (((cos t : ℝ) : ℂ) * F 0 1 (r * cos t, r * sin t)
        - ((sin t : ℝ) : ℂ) * F 1 0 (r * cos t, r * sin t)) := by
      filter_upwards [hct.eventually h1] with t ht
      refine ht.2.2.trans ?_
      simp only [polarPoint]
      ring
    have := ((((hcos.fun_mul b01).fun_sub (hsin.fun_mul b10)).const_mul (r : ℂ)).congr_of_eventuallyEq he).deriv
    refine this.trans ?_
    simp only [p, c, s, polarPoint]
    push_cast
    norm_num
    ring

/-- **C57** `eval_grad_f_polar` and `eval_hessian_f_polar` return the Cartesian gradient and Hessian: `F` is the source in Cartesian
coordinates, with two derivatives near the point, and `f` the same function in polar coordinates near `(r, th)`. -/
theorem C57_polar (hF : JetOn Ω 2 F) (hr : r ≠ 0) (hp : polarPoint r th ∈ Ω)
    (hf : ∀ᶠ q in 𝓝 (r, th), f q.1 q.2 = F 0 0 (polarPoint q.1 q.2)) :
    spGradPolar f r th = .ok (F 1 0 (polarPoint r th), F 0 1 (polarPoint r th)) ∧
    spHessPolar f r th = .ok ((F 2 0 (polarPoint r th), F 1 1 (polarPoint r th)),
      (F 1 1 (polarPoint r th), F 0 2 (polarPoint r th))) := by
  obtain ⟨-, d1, d2⟩ := (polar_first hF hp hf).self_of_nhds
  obtain ⟨e1, e2, e3⟩ := polar_second hF hp hf
  dsimp only at d1 d2
  have hr' : (r : ℂ) ≠ 0 := by exact_mod_cast hr
  have hcs : ((sin th : ℝ) : ℂ) ^ 2 + ((cos th : ℝ) : ℂ) ^ 2 = 1 := by exact_mod_cast sin_sq_add_cos_sq th
  unfold spGradPolar spHessPolar
  rw [if_neg hr, if_neg hr, d1, d2, e1, e2, e3]
  generalize hC : ((cos th : ℝ) : ℂ) = C at *
  generalize hS : ((sin th : ℝ) : ℂ) = S at *
  have hC2 : C ^ 2 = 1 - S ^ 2 := by linear_combination hcs
  simp only [pure_eq_ok, Except.ok.injEq, Prod.mk.injEq]
  refine ⟨⟨?_, ?_⟩, ⟨?_, ?_⟩, ?_, ?_⟩
  · field_simp
    linear_combination (F 1 0 (polarPoint r th)) * hcs
  · field_simp
    linear_combination (F 0 1 (polarPoint r th)) * hcs
  all_goals
    field_simp
    ring_nf
    simp only [show C ^ 4 = (1 - S ^ 2) ^ 2 by rw [← hC2]; ring, hC2]
    ring

/-- **C57** the same from Cartesian coordinates, away from the origin; `f` near the polar coordinates the code computes. -/
theorem C57_cart (hF : JetOn Ω 2 F) {x y : ℝ} (h0 : (x, y) ≠ (0, 0)) (hp : (x, y) ∈ Ω)
    (hf : ∀ᶠ q in 𝓝 (cartToPolar x y), f q.1 q.2 = F 0 0 (polarPoint q.1 q.2)) :
    spGrad f x y = .ok (F 1 0 (x, y), F 0 1 (x, y)) ∧
    spHess f x y = .ok ((F 2 0 (x, y), F 1 1 (x, y)), (F 1 1 (x, y), F 0 2 (x, y))) := by
  have hpt := cartToPolar_point x y
  have hr : (cartToPolar x y).1 ≠ 0 := by
    intro h
    rw [h] at hpt
    apply h0
    rw [← hpt]
    simp [polarPoint]
  have := C57_polar (r := (cartToPolar x y).1) (th := (cartToPolar x y).2) hF hr (by rwa [hpt]) hf
  rwa [hpt] at this

/-- **C57** at the origin both are nan. -/
theorem C57_origin (f : ℝ → ℝ → ℂ) (th : ℝ) : spGradPolar f 0 th = .error .nanValue ∧ spHessPolar f 0 th = .error .nanValue ∧
    spGrad f 0 0 = .error .nanValue ∧ spHess f 0 0 = .error .nanValue := by
  unfold spGrad spHess
  rw [cartToPolar_zero]
  unfold spGradPolar spHessPolar
  rw [if_pos rfl, if_pos rfl, if_pos rfl, if_pos rfl]
  exact ⟨rfl, rfl, rfl, rfl⟩

/-- **C57** away from the origin the methods of a SymPy problem meet what the extension theorems ask of a source at a point of
the sides. -/
theorem C57_source (hF : JetOn Ω 2 F) (AD : ℝ) {x y : ℝ} (h0 : (x, y) ≠ (0, 0)) (hp : (x, y) ∈ Ω)
    (hf : ∀ᶠ q in 𝓝 (cartToPolar x y), f q.1 q.2 = F 0 0 (polarPoint q.1 q.2)) : SrcAt (spSource AD f) F (x, y) := by
  obtain ⟨h1, h2⟩ := C57_cart hF h0 hp hf
  refine ⟨?_, h1, h2⟩
  have hpt := cartToPolar_point x y
  have hr : (cartToPolar x y).1 ≠ 0 := by
    intro h
    rw [h] at hpt
    apply h0
    rw [← hpt]
    simp [polarPoint]
  show pyGet (spF AD f x y) = _
  unfold spF spFPolar
  rw [if_neg hr]
  show f _ _ = _
  rw [hf.self_of_nhds, hpt]

/-- **C57** and at a point of the outer boundary, in polar coordinates. -/
theorem C57_source_polar (hF : JetOn Ω 2 F) (AD : ℝ) (hr : r ≠ 0) (hp : polarPoint r th ∈ Ω)
    (hf : ∀ᶠ q in 𝓝 (r, th), f q.1 q.2 = F 0 0 (polarPoint q.1 q.2))
    {Ω' : Set (ℝ × ℝ)} {P : ℕ → ℕ → ℝ × ℝ → ℂ} (hP : JetOn Ω' 2 P) (hq : (r, th) ∈ Ω') (hPf : ∀ q ∈ Ω', P 0 0 q = f q.1 q.2) :
    SrcPolarAt (spSource AD f) F P r th := by
  obtain ⟨h1, h2⟩ := C57_polar hF hr hp hf
  have hfp : ∀ q ∈ Ω', spDFr f q.1 q.2 = P 1 0 q ∧ spDFth f q.1 q.2 = P 0 1 q := by
    intro q hq
    have er : (fun ρ => f ρ q.2) =ᶠ[𝓝 q.1] fun ρ => P 0 0 (ρ, q.2) := by
      have hm : Tendsto (fun ρ : ℝ => (ρ, q.2)) (𝓝 q.1) (𝓝 q) := Continuous.tendsto' (by fun_prop) _ _ rfl
      filter_upwards [hm.eventually (hP.isOpen.mem_nhds hq)] with ρ hρ
      exact (hPf _ hρ).symm
    have et : (fun t => f q.1 t) =ᶠ[𝓝 q.2] fun t => P 0 0 (q.1, t) := by
      have hm : Tendsto (fun t : ℝ => (q.1, t)) (𝓝 q.2) (𝓝 q) := Continuous.tendsto' (by fun_prop) _ _ rfl
      filter_upwards [hm.eventually (hP.isOpen.mem_nhds hq)] with t ht
      exact (hPf _ ht).symm
    constructor
    · have := JetOn.along hP (i := 0) (j := 0) (by norm_num) (hasDerivAt_id' q.1) (hasDerivAt_const q.1 q.2) hq
      refine ((this.congr_of_eventuallyEq er).deriv).trans ?_
      norm_num
    · have := JetOn.along hP (i := 0) (j := 0) (by norm_num) (hasDerivAt_const q.2 q.1) (hasDerivAt_id' q.2) hq
      refine ((this.congr_of_eventuallyEq et).deriv).trans ?_
      norm_num
  have hmr : Tendsto (fun ρ : ℝ => (ρ, th)) (𝓝 r) (𝓝 (r, th)) := Continuous.tendsto' (by fun_prop) _ _ rfl
  have hmt : Tendsto (fun t : ℝ => (r, t)) (𝓝 th) (𝓝 (r, th)) := Continuous.tendsto' (by fun_prop) _ _ rfl
  refine ⟨?_, h1, h2, (hfp _ hq).2, ?_, (hfp _ hq).1, ?_, ?_⟩
  · show pyGet (spFPolar AD f r th) = _
    unfold spFPolar
    rw [if_neg hr]
    exact hf.self_of_nhds
  · have := JetOn.along hP (i := 0) (j := 1) (by norm_num) (hasDerivAt_const th r) (hasDerivAt_id' th) hq
    have e : (fun t => spDFth f r t) =ᶠ[𝓝 th] fun t => P 0 1 (r, t) := by
      filter_upwards [hmt.eventually (hP.isOpen.mem_nhds hq)] with t ht
      exact (hfp _ ht).2
    refine ((this.congr_of_eventuallyEq e).deriv).trans ?_
    norm_num
  · have := JetOn.along hP (i := 1) (j := 0) (by norm_num) (hasDerivAt_id' r) (hasDerivAt_const r th) hq
    have e : (fun ρ => spDFr f ρ th) =ᶠ[𝓝 r] fun ρ => P 1 0 (ρ, th) := by
      filter_upwards [hmr.eventually (hP.isOpen.mem_nhds hq)] with ρ hρ
      exact (hfp _ hρ).1
    refine ((this.congr_of_eventuallyEq e).deriv).trans ?_
    norm_num
  · have := JetOn.along hP (i := 1) (j := 0) (by norm_num) (hasDerivAt_const th r) (hasDerivAt_id' th) hq
    have e : (fun t => spDFr f r t) =ᶠ[𝓝 th] fun t => P 1 0 (r, t) := by
      filter_upwards [hmt.eventually (hP.isOpen.mem_nhds hq)] with t ht
      exact (hfp _ ht).1
    refine ((this.congr_of_eventuallyEq e).deriv).trans ?_
    norm_num

/-! ## The origin -/

theorem cartToPolar_neg {h : ℝ} (hh : 0 < h) : cartToPolar (-h) 0 = (h, π) := by
  have := cartToPolar_polar hh (t := π) pi_pos (by linarith [pi_pos])
  simpa using this

/-- **C58** the value of the source at the origin: with `h = AD_len / 10000` it is the second-order Taylor value from `(-h, 0)`
*plus* `h² f_xx(-h, 0)`. -/
theorem C58_origin (hF : JetOn Ω 2 F) {AD : ℝ} (hA : 0 < AD) (hp : (-(AD / 10000), 0) ∈ Ω)
    (hf : ∀ᶠ q in 𝓝 (AD / 10000, π), f q.1 q.2 = F 0 0 (polarPoint q.1 q.2)) (th : ℝ) :
    let h := AD / 10000
    let T := taylor2 (F 0 0 (-h, 0)) (F 1 0 (-h, 0), F 0 1 (-h, 0))
      ((F 2 0 (-h, 0), F 1 1 (-h, 0)), (F 1 1 (-h, 0), F 0 2 (-h, 0))) (-h, 0) (0, 0)
    spFPolar AD f 0 th = .ok (T + (h : ℂ) ^ 2 * F 2 0 (-h, 0)) ∧ spF AD f 0 0 = .ok (T + (h : ℂ) ^ 2 * F 2 0 (-h, 0)) := by
  intro h T
  have hh : 0 < h := div_pos hA (by norm_num)
  have hcp := cartToPolar_neg hh
  have hne : ((-h, 0) : ℝ × ℝ) ≠ (0, 0) := by
    intro e
    have := congrArg Prod.fst e
    simp only at this
    linarith
  obtain ⟨h1, h2⟩ := C57_cart hF hne hp (by rw [hcp]; exact hf)
  have key : ∀ t, spFPolar AD f 0 t = .ok (T + (h : ℂ) ^ 2 * F 2 0 (-h, 0)) := by
    intro t
    unfold spFPolar
    rw [if_pos rfl]
    have hf0 : f h π = F 0 0 (-h, 0) := by
      rw [hf.self_of_nhds]
      simp [polarPoint, h]
    simp only [show AD / 10000 = h from rfl]
    rw [h1, h2, hcp, ok_bind, ok_bind, hf0]
    simp only [pure_eq_ok, Except.ok.injEq, T, taylor2, hdot, dot2]
    push_cast
    ring
  refine ⟨key th, ?_⟩
  unfold spF
  rw [cartToPolar_zero]
  exact key _

/-- **C58** so for a source with `f_xx = 0` at `(-h, 0)`, in particular an affine one, it is the Taylor value. -/
theorem C58_affine_partial (hF : JetOn Ω 2 F) {AD : ℝ} (hA : 0 < AD) (hp : (-(AD / 10000), 0) ∈ Ω)
    (hf : ∀ᶠ q in 𝓝 (AD / 10000, π), f q.1 q.2 = F 0 0 (polarPoint q.1 q.2)) (hxx : F 2 0 (-(AD / 10000), 0) = 0) :
    spF AD f 0 0 = .ok (F 0 0 (-(AD / 10000), 0) + (AD / 10000 : ℝ) * F 1 0 (-(AD / 10000), 0)) := by
  rw [(C58_origin hF hA hp hf 0).2, hxx]
  simp only [taylor2, Except.ok.injEq]
  push_cast
  ring

end

/-- the jet of `x²` -/
noncomputable def xxJet : ℕ → ℕ → ℝ × ℝ → ℂ
  | 0, 0, p => (p.1 : ℂ) ^ 2
  | 1, 0, p => 2 * (p.1 : ℂ)
  | 2, 0, _ => 2
  | _, _, _ => 0

theorem xxJet_jetOn : JetOn Set.univ 2 xxJet := by
  refine ⟨isOpen_univ, fun i j hij p _ => ?_⟩
  have h1 : HasFDerivAt (fun p : ℝ × ℝ => ((p.1 : ℝ) : ℂ)) (grad2 1 0) p := by
    have h := (Complex.ofRealCLM.hasFDerivAt (x := p.1)).comp p (hasFDerivAt_fst (p := p))
    refine h.congr_fderiv ?_
    ext <;> simp [grad2]
  obtain rfl | rfl : i = 0 ∨ i = 1 := by omega
  · obtain rfl | rfl : j = 0 ∨ j = 1 := by omega
    · have := h1.pow 2
      refine (this.congr_fderiv ?_)
      ext <;> simp [grad2, xxJet]
    · refine (hasFDerivAt_const (0 : ℂ) p).congr_fderiv ?_
      ext <;> simp [grad2, xxJet]
  · obtain rfl : j = 0 := by omega
    refine (h1.const_mul (2 : ℂ)).congr_fderiv ?_
    ext <;> simp [grad2, xxJet]

/-- **C58** the statement "the value at the origin is the second-order Taylor value" is false of the code: for the source `x²`
that value is 0, the code computes `2 h²`. -/
theorem C58_false : ¬ ∀ (f : ℝ → ℝ → ℂ) (F : ℕ → ℕ → ℝ × ℝ → ℂ) (AD : ℝ), JetOn Set.univ 2 F → 0 < AD →
    (∀ r th, f r th = F 0 0 (polarPoint r th)) →
    spF AD f 0 0 = .ok (taylor2 (F 0 0 (-(AD / 10000), 0)) (F 1 0 (-(AD / 10000), 0), F 0 1 (-(AD / 10000), 0))
      ((F 2 0 (-(AD / 10000), 0), F 1 1 (-(AD / 10000), 0)), (F 1 1 (-(AD / 10000), 0), F 0 2 (-(AD / 10000), 0)))
      (-(AD / 10000), 0) (0, 0)) := by
  intro h
  have hf : ∀ r th, (fun r th => ((r * cos th : ℝ) : ℂ) ^ 2) r th = xxJet 0 0 (polarPoint r th) := fun r th => by
    simp [xxJet, polarPoint]
  have h1 := h _ xxJet 10000 xxJet_jetOn (by norm_num) hf
  have h2 := (C58_origin (f := fun r th => ((r * cos th : ℝ) : ℂ) ^ 2) xxJet_jetOn (AD := 10000) (by norm_num) trivial (.of_forall fun q => hf q.1 q.2) 0).2
  rw [h1] at h2
  norm_num [taylor2, xxJet] at h2

/-- C57, C58: the source `x²` with `AD_len = 10000`, so `h = 1` -/
example : spGrad (fun r th => ((r * cos th : ℝ) : ℂ) ^ 2) 3 4 = .ok (6, 0) ∧
    spHess (fun r th => ((r * cos th : ℝ) : ℂ) ^ 2) 3 4 = .ok ((2, 0), (0, 0)) ∧
    spF 10000 (fun r th => ((r * cos th : ℝ) : ℂ) ^ 2) 0 0 = .ok 2 := by
  have hf : ∀ q : ℝ × ℝ, (fun r th => ((r * cos th : ℝ) : ℂ) ^ 2) q.1 q.2 = xxJet 0 0 (polarPoint q.1 q.2) := fun q => by
    simp [xxJet, polarPoint]
  obtain ⟨h1, h2⟩ := C57_cart (f := fun r th => ((r * cos th : ℝ) : ℂ) ^ 2) xxJet_jetOn (x := 3) (y := 4) (by simp) trivial (.of_forall hf)
  have h3 := (C58_origin (f := fun r th => ((r * cos th : ℝ) : ℂ) ^ 2) xxJet_jetOn (AD := 10000) (by norm_num) trivial (.of_forall hf) 0).2
  refine ⟨h1.trans ?_, h2.trans ?_, h3.trans ?_⟩ <;> norm_num [xxJet, taylor2]

end Pot
