import Verif.Model.Smooth
import Verif.Props.SympyProblem
import Verif.Props.Coord
import Verif.Props.Boundary

/-! # C56, C64: the smooth problems -/

namespace Pot
open Spec Real

/-! ## Jets of the three solutions -/

theorem hasFDerivAt_fstC (p : ℝ × ℝ) : HasFDerivAt (fun p : ℝ × ℝ => ((p.1 : ℝ) : ℂ)) (grad2 1 0) p := by
  have h := (Complex.ofRealCLM.hasFDerivAt (x := p.1)).comp p (hasFDerivAt_fst (p := p))
  refine h.congr_fderiv ?_
  ext <;> simp [grad2]

theorem hasFDerivAt_sndC (p : ℝ × ℝ) : HasFDerivAt (fun p : ℝ × ℝ => ((p.2 : ℝ) : ℂ)) (grad2 0 1) p := by
  have h := (Complex.ofRealCLM.hasFDerivAt (x := p.2)).comp p (hasFDerivAt_snd (p := p))
  refine h.congr_fderiv ?_
  ext <;> simp [grad2]

/-- a function of the first coordinate -/
theorem hasFDerivAt_comp_fst {g : ℝ → ℂ} {g' : ℂ} {p : ℝ × ℝ} (h : HasDerivAt g g' p.1) :
    HasFDerivAt (fun p : ℝ × ℝ => g p.1) (grad2 g' 0) p := by
  refine (h.hasFDerivAt.comp p (hasFDerivAt_fst (p := p))).congr_fderiv ?_
  ext <;> simp [grad2]

theorem hasDerivAt_sin_shift (k c : ℝ) (i : ℕ) (x : ℝ) :
    HasDerivAt (fun x : ℝ => ((k ^ i * sin (k * x + c + i * (π / 2)) : ℝ) : ℂ))
      ((k ^ (i + 1) * sin (k * x + c + (i + 1 : ℕ) * (π / 2)) : ℝ) : ℂ) x := by
  refine HasDerivAt.ofReal_comp ?_
  have h1 : HasDerivAt (fun x : ℝ => k * x + c + i * (π / 2)) k x := by
    simpa using (((hasDerivAt_id' x).const_mul k).add_const c).add_const (i * (π / 2))
  refine (h1.sin.const_mul (k ^ i)).congr_deriv ?_
  rw [show k * x + c + ((i + 1 : ℕ) : ℝ) * (π / 2) = k * x + c + i * (π / 2) + π / 2 by push_cast; ring, sin_add_pi_div_two]
  ring

/-- `sin(k x)` -/
noncomputable def sineJet (k : ℝ) : ℕ → ℕ → ℝ × ℝ → ℂ := fun i j p =>
  if j = 0 then ((k ^ i * sin (k * p.1 + 0 + i * (π / 2)) : ℝ) : ℂ) else 0

theorem sineJet_jetOn (k : ℝ) (n : ℕ) : JetOn Set.univ n (sineJet k) := by
  refine ⟨isOpen_univ, fun i j _ p _ => ?_⟩
  unfold sineJet
  by_cases hj : j = 0
  · simp only [hj, if_true, Nat.succ_ne_zero, if_false, zero_add]
    exact hasFDerivAt_comp_fst (hasDerivAt_sin_shift k 0 i p.1)
  · simp only [hj, if_false, Nat.succ_ne_zero]
    refine (hasFDerivAt_const (0 : ℂ) p).congr_fderiv ?_
    ext <;> simp [grad2]

/-- `exp(i (kx x + ky y))` -/
noncomputable def waveJet (kx ky : ℝ) : ℕ → ℕ → ℝ × ℝ → ℂ := fun i j p =>
  (Complex.I * kx) ^ i * (Complex.I * ky) ^ j * Complex.exp (Complex.I * ((kx * p.1 + ky * p.2 : ℝ) : ℂ))

theorem waveJet_jetOn (kx ky : ℝ) (n : ℕ) : JetOn Set.univ n (waveJet kx ky) := by
  refine ⟨isOpen_univ, fun i j _ p _ => ?_⟩
  have h1 : HasFDerivAt (fun p : ℝ × ℝ => Complex.I * ((kx * p.1 + ky * p.2 : ℝ) : ℂ)) (grad2 (Complex.I * kx) (Complex.I * ky)) p := by
    have := (((hasFDerivAt_fstC p).const_mul (kx : ℂ)).add ((hasFDerivAt_sndC p).const_mul (ky : ℂ))).const_mul Complex.I
    refine (this.congr_fderiv ?_).congr_of_eventuallyEq (.of_forall fun q => ?_)
    · ext <;> simp [grad2]
    · simp
  refine ((h1.cexp).const_mul ((Complex.I * kx) ^ i * (Complex.I * ky) ^ j)).congr_fderiv ?_
  ext <;> simp [grad2, waveJet] <;> ring

/-- `y cos x` -/
noncomputable def ycosJet : ℕ → ℕ → ℝ × ℝ → ℂ := fun i j p =>
  if j = 0 then (p.2 : ℂ) * ((1 ^ i * sin (1 * p.1 + π / 2 + i * (π / 2)) : ℝ) : ℂ)
  else if j = 1 then ((1 ^ i * sin (1 * p.1 + π / 2 + i * (π / 2)) : ℝ) : ℂ) else 0

theorem ycosJet_jetOn (n : ℕ) : JetOn Set.univ n ycosJet := by
  refine ⟨isOpen_univ, fun i j _ p _ => ?_⟩
  have h1 := hasFDerivAt_comp_fst (p := p) (hasDerivAt_sin_shift 1 (π / 2) i p.1)
  unfold ycosJet
  by_cases hj : j = 0
  · subst hj
    simp only [if_true, zero_add, one_ne_zero, if_false]
    refine ((hasFDerivAt_sndC p).fun_mul h1).congr_fderiv ?_
    ext <;> simp [grad2]
  · by_cases hj1 : j = 1
    · subst hj1
      simp only [one_ne_zero, if_false, if_true]
      refine h1.congr_fderiv ?_
      ext <;> simp [grad2]
    · simp only [hj, hj1, if_false, Nat.succ_ne_zero, show j + 1 ≠ 1 by omega]
      refine (hasFDerivAt_const (0 : ℂ) p).congr_fderiv ?_
      ext <;> simp [grad2]

/-! ## C56 -/

/-- what a smooth problem promises: the expected solution `u` is smooth, solves the equation with the source `f`, and `grad` is
its gradient -/
structure SmoothConsistent (k : ℝ) (u : ℝ → ℝ → ℂ) (grad : ℝ → ℝ → Py (ℂ × ℂ)) (f : ℝ → ℝ → ℂ) : Prop where
  ex : ∃ U : ℕ → ℕ → ℝ × ℝ → ℂ, (∀ n, JetOn Set.univ n U) ∧ (∀ x y, U 0 0 (x, y) = u x y) ∧
    (∀ x y, grad x y = .ok (U 1 0 (x, y), U 0 1 (x, y))) ∧ Helmholtz Set.univ k U fun p => f p.1 p.2

/-- **C56** `smooth-sine`: `sin(k x)` with source 0. -/
theorem C56_sine (k : ℝ) : SmoothConsistent k (sineExpected k) (sineGrad k) fun _ _ => 0 := by
  refine ⟨sineJet k, sineJet_jetOn k, fun x y => ?_, fun x y => ?_, fun p _ => ?_⟩
  · simp [sineJet, sineExpected]
  · simp only [sineGrad, sineJet, pure_eq_ok, Except.ok.injEq, Prod.mk.injEq, if_true, one_ne_zero, if_false, and_true]
    rw [show k * x + 0 + ((1 : ℕ) : ℝ) * (π / 2) = k * x + π / 2 by push_cast; ring, sin_add_pi_div_two]
    simp
  · simp only [sineJet, if_true, OfNat.ofNat_ne_zero, if_false]
    rw [show k * p.1 + 0 + ((2 : ℕ) : ℝ) * (π / 2) = k * p.1 + π by push_cast; ring, sin_add_pi]
    push_cast
    simp

/-- **C56** `smooth-e`: the plane wave with wave vector `(0.8 k, 0.6 k)` and source 0, once `kx` and `ky` have been set. -/
theorem C56_e (k : ℝ) : SmoothConsistent k (fun x y => (eExpected k x y).1) (eGrad (some (4 / 5 * k, 3 / 5 * k))) fun _ _ => 0 := by
  refine ⟨waveJet (4 / 5 * k) (3 / 5 * k), waveJet_jetOn _ _, fun x y => ?_, fun x y => ?_, fun p _ => ?_⟩
  · simp [waveJet, eExpected]
  · simp only [eGrad, waveJet, pure_eq_ok, pow_zero, pow_one, mul_one, one_mul]
  · simp only [waveJet]
    push_cast
    ring_nf
    rw [Complex.I_sq]
    ring

/-- **C56** `smooth-ycos`: `y cos x`; the source the solver evaluates, the origin included, is `(k² - 1) y cos x`. -/
theorem C56_ycos (k : ℝ) {AD : ℝ} (hA : 0 < AD) :
    SmoothConsistent k ycosExpected ycosGrad (spSource AD (ycosF k)).f ∧
    (∀ x y, spF AD (ycosF k) x y = .ok (((k ^ 2 - 1) * (y * cos x) : ℝ) : ℂ)) ∧
    ∀ r th, spFPolar AD (ycosF k) r th = .ok (((k ^ 2 - 1) * (r * sin th * cos (r * cos th)) : ℝ) : ℂ) := by
  -- the source as a jet
  let F : ℕ → ℕ → ℝ × ℝ → ℂ := fun i j p => ((k ^ 2 - 1 : ℝ) : ℂ) * ycosJet i j p
  have hF : JetOn Set.univ 2 F := ⟨isOpen_univ, fun i j hij p hp => by
    refine (((ycosJet_jetOn 2).diff i j hij p hp).const_mul ((k ^ 2 - 1 : ℝ) : ℂ)).congr_fderiv ?_
    ext <;> simp [grad2, F]⟩
  have hf : ∀ q : ℝ × ℝ, ycosF k q.1 q.2 = F 0 0 (polarPoint q.1 q.2) := by
    intro q
    simp only [ycosF, F, ycosJet, polarPoint, if_true]
    simp only [pow_zero, one_mul, Nat.cast_zero, zero_mul, add_zero, sin_add_pi_div_two]
    push_cast
    ring
  have h0 : ∀ th, spFPolar AD (ycosF k) 0 th = .ok 0 := by
    intro th
    rw [(C58_origin hF hA trivial (.of_forall hf) th).1]
    simp [taylor2, F, ycosJet]
  have hpol : ∀ r th, spFPolar AD (ycosF k) r th = .ok (((k ^ 2 - 1) * (r * sin th * cos (r * cos th)) : ℝ) : ℂ) := by
    intro r th
    by_cases hr : r = 0
    · rw [hr, h0]; simp
    · unfold spFPolar
      rw [if_neg hr, pure_eq_ok]
      simp only [ycosF, Except.ok.injEq]
      push_cast
      ring
  have hcart : ∀ x y, spF AD (ycosF k) x y = .ok (((k ^ 2 - 1) * (y * cos x) : ℝ) : ℂ) := by
    intro x y
    have hpt := cartToPolar_point x y
    unfold polarPoint at hpt
    obtain ⟨e1, e2⟩ := Prod.mk.inj hpt
    unfold spF
    rw [hpol, e1, e2]
  refine ⟨⟨ycosJet, ycosJet_jetOn, fun x y => ?_, fun x y => ?_, fun p _ => ?_⟩, hcart, hpol⟩
  · simp [ycosJet, ycosExpected, sin_add_pi_div_two]
  · simp only [ycosGrad, ycosJet, pure_eq_ok, Except.ok.injEq, Prod.mk.injEq, if_true, one_ne_zero, if_false]
    rw [show 1 * x + π / 2 + ((1 : ℕ) : ℝ) * (π / 2) = x + π by push_cast; ring, sin_add_pi]
    simp [sin_add_pi_div_two]
  · show _ = pyGet (spF AD (ycosF k) p.1 p.2)
    rw [hcart]
    simp only [ycosJet, pyGet, if_true, OfNat.ofNat_ne_zero, if_false]
    rw [show 1 * p.1 + π / 2 + ((2 : ℕ) : ℝ) * (π / 2) = p.1 + π / 2 + π by push_cast; ring, sin_add_pi]
    simp only [OfNat.ofNat_ne_one, if_false, pow_zero, one_mul, Nat.cast_zero, zero_mul, add_zero, sin_add_pi_div_two]
    push_cast
    ring

/-- **C56** the boundary data: `eval_bc` is the trace of the expected solution on the outer curve and on the lines of the two
sides, continued past the tip; other segment numbers are a TypeError. -/
theorem C56_bc (u : ℝ → ℝ → ℂ) (evalR : ℝ → ℝ) (a arg : ℝ) :
    smoothEvalBc u evalR a arg 0 = .ok (u (evalR arg * cos arg) (evalR arg * sin arg)) ∧
    smoothEvalBc u evalR a arg 1 = .ok (u arg 0) ∧
    smoothEvalBc u evalR a arg 2 = .ok (u (arg * cos a) (arg * sin a)) ∧
    ∀ sid, 3 ≤ sid → smoothEvalBc u evalR a arg sid = .error .typeError := by
  refine ⟨rfl, ?_, ?_, fun sid hs => ?_⟩
  · unfold smoothEvalBc argToPolarAbs
    rw [if_neg one_ne_zero, if_pos rfl]
    split_ifs with h
    · simp
    · simp
  · unfold smoothEvalBc argToPolarAbs
    rw [if_neg two_ne_zero, if_neg (by norm_num), if_pos rfl]
    split_ifs with h
    · rfl
    · simp only [pure_eq_ok, add_comm π a, cos_add_pi, sin_add_pi, neg_mul_neg]
  · unfold smoothEvalBc argToPolarAbs
    rw [if_neg (by omega), if_neg (by omega), if_neg (by omega)]
    rfl

/-- the outward unit normals: of the curve, of the side `th = 2π`, of the side `th = a` -/
noncomputable def outNormal (evalR : ℝ → ℝ) (a : ℝ) (sid : ℕ) (arg : ℝ) : ℝ × ℝ :=
  if sid = 0 then evalNormal evalR arg else if sid = 1 then (0, 1) else (sin a, -cos a)

/-- the boundary point with parameter `arg` -/
noncomputable def bdryPoint (evalR : ℝ → ℝ) (a : ℝ) (sid : ℕ) (arg : ℝ) : ℝ × ℝ :=
  if sid = 0 then polarPoint (evalR arg) arg else if sid = 1 then (arg, 0) else (arg * cos a, arg * sin a)

/-- **C56** `eval_d_u_outwards` is the derivative of the expected solution in the direction of the normal `(0, 1)` of the side
`th = 2π`, `(sin a, -cos a)` of the side `th = a`, and `eval_normal` of the curve. -/
theorem C56_normal {k : ℝ} {u : ℝ → ℝ → ℂ} {grad : ℝ → ℝ → Py (ℂ × ℂ)} {f : ℝ → ℝ → ℂ} (h : SmoothConsistent k u grad f)
    (evalR : ℝ → ℝ) (a arg : ℝ) {sid : ℕ} (hs : sid < 3) :
    ∃ d, smoothDUOut grad evalR a arg sid = .ok d ∧
      HasDerivAt (fun t : ℝ => u ((bdryPoint evalR a sid arg).1 + t * (outNormal evalR a sid arg).1)
        ((bdryPoint evalR a sid arg).2 + t * (outNormal evalR a sid arg).2)) d 0 := by
  obtain ⟨U, hU, hu, hg, -⟩ := h.ex
  have key : ∀ (p n : ℝ × ℝ), HasDerivAt (fun t : ℝ => u (p.1 + t * n.1) (p.2 + t * n.2))
      (dot2 (U 1 0 (p.1, p.2), U 0 1 (p.1, p.2)) n) 0 := by
    intro p n
    have hx : HasDerivAt (fun t : ℝ => p.1 + t * n.1) n.1 0 := by
      simpa using ((hasDerivAt_id' (0 : ℝ)).mul_const n.1).const_add p.1
    have hy : HasDerivAt (fun t : ℝ => p.2 + t * n.2) n.2 0 := by
      simpa using ((hasDerivAt_id' (0 : ℝ)).mul_const n.2).const_add p.2
    have := JetOn.along (hU 1) (i := 0) (j := 0) (by norm_num) hx hy trivial
    simp only [hu] at this
    refine this.congr_deriv ?_
    simp only [dot2, zero_mul, add_zero, zero_add]
    ring
  refine ⟨dot2 (U 1 0 (bdryPoint evalR a sid arg), U 0 1 (bdryPoint evalR a sid arg)) (outNormal evalR a sid arg), ?_, key _ _⟩
  have hA : ∃ r th, argToPolarAbs evalR a arg sid = some (r, th) ∧ (r * cos th, r * sin th) = bdryPoint evalR a sid arg ∧
      (sid = 0 → th = arg) := by
    interval_cases sid
    · exact ⟨_, _, rfl, rfl, fun _ => rfl⟩
    · by_cases hh : arg ≥ 0
      · exact ⟨arg, 2 * π, by simp [argToPolarAbs, hh], by simp [bdryPoint], by simp⟩
      · exact ⟨-arg, π, by simp [argToPolarAbs, hh], by simp [bdryPoint], by simp⟩
    · by_cases hh : arg ≥ 0
      · exact ⟨arg, a, by simp [argToPolarAbs, hh], by simp [bdryPoint], by simp⟩
      · exact ⟨-arg, π + a, by simp [argToPolarAbs, hh],
          by simp [bdryPoint, add_comm π a, cos_add_pi, sin_add_pi], by simp⟩
  obtain ⟨r, th, e1, e2, e3⟩ := hA
  unfold smoothDUOut
  rw [e1]
  simp only [hg, ok_bind, e2]
  interval_cases sid
  · rw [e3 rfl]; rfl
  · rfl
  · rfl

/-- **C56** the two constant normals have length one, are orthogonal to their sides and point out of the domain, whose points
have angles between `a` and `2π`. -/
theorem C56_outward (a : ℝ) (evalR : ℝ → ℝ) (arg : ℝ) {r : ℝ} (hr : 0 < r) :
    ((outNormal evalR a 1 arg).1 ^ 2 + (outNormal evalR a 1 arg).2 ^ 2 = 1 ∧
      (outNormal evalR a 2 arg).1 ^ 2 + (outNormal evalR a 2 arg).2 ^ 2 = 1) ∧
    ((outNormal evalR a 1 arg).1 * 1 + (outNormal evalR a 1 arg).2 * 0 = 0 ∧
      (outNormal evalR a 2 arg).1 * cos a + (outNormal evalR a 2 arg).2 * sin a = 0) ∧
    (∀ t, π < t → t < 2 * π → (outNormal evalR a 1 arg).1 * (r * cos t) + (outNormal evalR a 1 arg).2 * (r * sin t) < 0) ∧
    ∀ t, a < t → t < a + π → (outNormal evalR a 2 arg).1 * (r * cos t) + (outNormal evalR a 2 arg).2 * (r * sin t) < 0 := by
  have e1 : outNormal evalR a 1 arg = (0, 1) := rfl
  have e2 : outNormal evalR a 2 arg = (sin a, -cos a) := rfl
  rw [e1, e2]
  refine ⟨⟨by norm_num, ?_⟩, ⟨by norm_num, by ring⟩, fun t h1 h2 => ?_, fun t h1 h2 => ?_⟩
  · dsimp only
    linear_combination sin_sq_add_cos_sq a
  · have : sin t < 0 := by
      have := sin_pos_of_pos_of_lt_pi (x := t - π) (by linarith) (by linarith)
      rw [sin_sub_pi] at this
      linarith
    dsimp only
    nlinarith
  · have : 0 < sin (t - a) := sin_pos_of_pos_of_lt_pi (by linarith) (by linarith)
    rw [sin_sub] at this
    dsimp only
    nlinarith

/-! ## C64 -/

/-- the call evaluates the expected solution -/
def ECall.evaluates : ECall → Prop
  | .expected _ _ => True
  | .expectedPolar _ _ => True
  | .bc _ sid => sid < 3
  | _ => False

/-- **C64** after any sequence of calls on a fresh `Smooth_E` object, `get_grad` raises AttributeError if none of them evaluated
the expected solution; otherwise it returns the gradient of the expected solution. -/
theorem C64_history (k : ℝ) (evalR : ℝ → ℝ) (a : ℝ) (hist : List ECall) (x y : ℝ) :
    ((∀ c ∈ hist, ¬ c.evaluates) → (eStep k evalR a (eRun k evalR a none hist) (.grad x y)).1 = .error .attributeError) ∧
    ((∃ c ∈ hist, c.evaluates) → ∃ gx gy, (eStep k evalR a (eRun k evalR a none hist) (.grad x y)).1 = .ok (gx, gy) ∧
      HasFDerivAt (fun p : ℝ × ℝ => (eExpected k p.1 p.2).1) (grad2 gx gy) (x, y)) := by
  have hstep : ∀ st c, (eStep k evalR a st c).2 = st ∨ (eStep k evalR a st c).2 = some (4 / 5 * k, 3 / 5 * k) := by
    intro st c
    cases c with
    | expected x y => exact .inr rfl
    | expectedPolar r th => exact .inr rfl
    | bc arg sid =>
      unfold eStep
      dsimp only
      cases argToPolarAbs evalR a arg sid with
      | none => exact .inl rfl
      | some p => exact .inr rfl
    | grad x y => exact .inl rfl
    | dUOut arg sid => exact .inl rfl
  have hno : ∀ st c, ¬ c.evaluates → (eStep k evalR a st c).2 = st := by
    intro st c hc
    cases c with
    | expected x y => exact absurd trivial hc
    | expectedPolar r th => exact absurd trivial hc
    | bc arg sid =>
      have hs : ¬ sid < 3 := hc
      have : argToPolarAbs evalR a arg sid = none := by
        unfold argToPolarAbs
        rw [if_neg (by omega), if_neg (by omega), if_neg (by omega)]
      unfold eStep
      simp only [this]
    | grad x y => rfl
    | dUOut arg sid => rfl
  have hyes : ∀ st c, c.evaluates → (eStep k evalR a st c).2 = some (4 / 5 * k, 3 / 5 * k) := by
    intro st c hc
    cases c with
    | expected x y => rfl
    | expectedPolar r th => rfl
    | bc arg sid =>
      have hs : sid < 3 := hc
      have : ∃ p, argToPolarAbs evalR a arg sid = some p := by
        unfold argToPolarAbs
        by_cases h0 : sid = 0
        · exact ⟨_, if_pos h0⟩
        · rw [if_neg h0]
          by_cases h1 : sid = 1
          · rw [if_pos h1]; split_ifs <;> exact ⟨_, rfl⟩
          · rw [if_neg h1, if_pos (by omega)]; split_ifs <;> exact ⟨_, rfl⟩
      obtain ⟨p, hp⟩ := this
      unfold eStep
      simp only [hp]
      rfl
    | grad x y => exact absurd hc id
    | dUOut arg sid => exact absurd hc id
  have hkeep : ∀ h, eRun k evalR a (some (4 / 5 * k, 3 / 5 * k)) h = some (4 / 5 * k, 3 / 5 * k) := by
    intro h
    induction h with
    | nil => rfl
    | cons c cs ih =>
      unfold eRun
      rcases hstep (some (4 / 5 * k, 3 / 5 * k)) c with e | e <;> rw [e, ih]
  constructor
  · intro h
    have : eRun k evalR a none hist = none := by
      induction hist with
      | nil => rfl
      | cons c cs ih =>
        unfold eRun
        rw [hno none c (h c (by simp))]
        exact ih fun d hd => h d (by simp [hd])
    rw [this]
    rfl
  · rintro ⟨c, hc, he⟩
    have : eRun k evalR a none hist = some (4 / 5 * k, 3 / 5 * k) := by
      obtain ⟨l1, l2, rfl⟩ := List.append_of_mem hc
      generalize (none : Option (ℝ × ℝ)) = st
      clear hc
      induction l1 generalizing st with
      | nil =>
        show eRun k evalR a (eStep k evalR a st c).2 l2 = _
        rw [hyes st c he, hkeep]
      | cons d ds ih =>
        show eRun k evalR a (eStep k evalR a st d).2 (ds ++ c :: l2) = _
        exact ih _
    rw [this]
    obtain ⟨U, hU, hu, hg, -⟩ := (C56_e k).ex
    refine ⟨U 1 0 (x, y), U 0 1 (x, y), hg x y, ?_⟩
    have := (hU 1).diff 0 0 (by norm_num) (x, y) trivial
    refine this.congr_of_eventuallyEq (.of_forall fun p => ?_)
    exact (hu p.1 p.2).symm

/-- C64: the extension test evaluates the normal derivative before the boundary data -/
example : (eStep 5 (fun _ => 1) 1 (eRun 5 (fun _ => 1) 1 none [.dUOut 0 1]) (.grad 0 0)).1 = .error .attributeError ∧
    (eStep 5 (fun _ => 1) 1 (eRun 5 (fun _ => 1) 1 none [.dUOut 0 1, .bc 0 1]) (.grad 0 0)).1
      = .ok (Complex.I * 4, Complex.I * 3) := by
  refine ⟨(C64_history 5 (fun _ => 1) 1 _ 0 0).1 (by simp [ECall.evaluates]), ?_⟩
  norm_num [eRun, eStep, argToPolarAbs, eExpected, eGrad]

/-- C56: the normal derivative of `sin(2 x)` on the unit circle at angle 0 -/
example : smoothDUOut (sineGrad 2) (fun _ => 1) 1 5 1 = .ok 0 ∧ smoothEvalBc (sineExpected 2) (fun _ => 1) 1 5 1 = .ok (sin 10 : ℝ) := by
  refine ⟨?_, (C56_bc _ _ _ _).2.1.trans ?_⟩
  · norm_num [smoothDUOut, argToPolarAbs, sineGrad, dot2]
  · norm_num [sineExpected]

end Pot
