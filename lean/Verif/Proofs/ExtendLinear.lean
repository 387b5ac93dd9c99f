import Verif.Proofs.Extend
import Verif.Props.Coord
import Mathlib.Algebra.Module.Pi

/-! # The nine extension cases, and their linearity in the data -/

namespace Pot
open Spec Finset Real

theorem grp_ok (a x y : ℝ) : getRadiusPointPy a 2 x y = .ok (getRadiusPoint a x y) := ((C08_assert a x y 2).2 rfl).1
theorem sdr_ok (a x y : ℝ) : signedDistToRadiusPy a 2 x y = .ok (signedDistToRadius a x y) :=
  ((C08_assert a x y 2).2 rfl).2.2

variable (s : PSolver) {src : XiSrc} {nd : Node}

theorem doExtend0Standard_ok (hv : src.Valid s.bas.bDesc) {c : ℝ × ℝ} (hc : s.cache nd = some (some c)) :
    doExtend0Standard s src nd = .ok (|c.1|, extendPolar s.k (outerArgs s.e.evalR c.1 c.2 (xiTab s src c.2 0))) := by
  obtain ⟨d, h0, hd⟩ := extCalc_holds s hv arcTypes c.2 0 arcTypes_sub
  unfold doExtend0Standard
  rw [cacheGet_ok hc, ok_bind]
  change (extCalcXi s src arcTypes c.2 0 >>= _) = _
  rw [h0, ok_bind, doExtend0_ok s hc hd, ok_bind, pure_eq_ok]

theorem doExtend0Left_ok (hv : src.Valid s.bas.bDesc) {c : ℝ × ℝ} (hc : s.cache nd = some (some c)) :
    doExtend0Left s src nd = .ok (|c.2 - s.e.a| * s.e.R + |c.1|,
      extendPolar s.k (outerArgs s.e.evalR c.1 c.2 (shiftTab (xiTab s src s.e.a 0) (c.2 - s.e.a)))) := by
  unfold doExtend0Left
  rw [cacheGet_ok hc, ok_bind, doExtendTaylor0_ok s hv hc]

theorem doExtend0Right_ok (hv : src.Valid s.bas.bDesc) {c : ℝ × ℝ} (hc : s.cache nd = some (some c)) :
    doExtend0Right s src nd = .ok (|c.2 - 2 * π| * s.e.R + |c.1|,
      extendPolar s.k (outerArgs s.e.evalR c.1 c.2 (shiftTab (xiTab s src (2 * π) 0) (c.2 - 2 * π)))) := by
  unfold doExtend0Right
  rw [cacheGet_ok hc, ok_bind, doExtendTaylor0_ok s hv hc]

theorem doExtend1Standard_ok (hv : src.Valid s.bas.bDesc) :
    doExtend1Standard s src nd = .ok (|(s.e.coord nd).2|,
      extendArbitrary s.k (radiusArgs (s.e.coord nd).2 (xiTab s src (s.e.coord nd).1 1))) := by
  obtain ⟨d, h0, hd⟩ := extCalc_holds s hv radiusTypes (s.e.coord nd).1 1 radiusTypes_sub
  unfold doExtend1Standard
  simp only []
  rw [h0, ok_bind, extendRadius_ok s _ hd, ok_bind, pure_eq_ok]

theorem doExtend1Left_ok (hv : src.Valid s.bas.bDesc) :
    doExtend1Left s src nd = .ok (|(s.e.coord nd).1| + |(s.e.coord nd).2|,
      extendArbitrary s.k (radiusArgs (s.e.coord nd).2 (shiftTab (xiTab s src 0 1) (s.e.coord nd).1))) := by
  unfold doExtend1Left
  simp only []
  rw [doExtendTaylorR_ok s hv nd (by decide)]

theorem doExtend1Right_ok (hv : src.Valid s.bas.bDesc) :
    doExtend1Right s src nd = .ok (|(s.e.coord nd).1 - s.e.R| + |(s.e.coord nd).2|,
      extendArbitrary s.k (radiusArgs (s.e.coord nd).2
        (shiftTab (xiTab s src s.e.R 1) ((s.e.coord nd).1 - s.e.R)))) := by
  unfold doExtend1Right
  simp only []
  rw [doExtendTaylorR_ok s hv nd (by decide)]

/-- the foot point on the upper wedge side, and the signed distance -/
noncomputable def foot2 (s : PSolver) (nd : Node) : ℝ × ℝ := getRadiusPoint s.e.a (s.e.coord nd).1 (s.e.coord nd).2
noncomputable def sdist2 (s : PSolver) (nd : Node) : ℝ :=
  signedDistToRadius s.e.a (s.e.coord nd).1 (s.e.coord nd).2

theorem doExtend2Standard_ok (hv : src.Valid s.bas.bDesc) :
    doExtend2Standard s src nd = .ok (|sdist2 s nd|,
      extendArbitrary s.k (radiusArgs (sdist2 s nd)
        (xiTab s src (cartToPolar (foot2 s nd).1 (foot2 s nd).2).1 2))) := by
  obtain ⟨d, h0, hd⟩ := extCalc_holds s hv radiusTypes (cartToPolar (foot2 s nd).1 (foot2 s nd).2).1 2 radiusTypes_sub
  unfold doExtend2Standard
  simp only []
  rw [grp_ok, ok_bind]
  change (extCalcXi s src radiusTypes (cartToPolar (foot2 s nd).1 (foot2 s nd).2).1 2 >>= _) = _
  rw [h0, ok_bind, sdr_ok, ok_bind, extendRadius_ok s _ hd, ok_bind, pure_eq_ok]
  rfl

theorem doExtend2Left_ok (hv : src.Valid s.bas.bDesc) :
    doExtend2Left s src nd = .ok (|-√((foot2 s nd).1 ^ 2 + (foot2 s nd).2 ^ 2)| + |sdist2 s nd|,
      extendArbitrary s.k (radiusArgs (sdist2 s nd)
        (shiftTab (xiTab s src 0 2) (-√((foot2 s nd).1 ^ 2 + (foot2 s nd).2 ^ 2))))) := by
  unfold doExtend2Left
  simp only []
  rw [grp_ok, ok_bind, sdr_ok, ok_bind, doExtendTaylorR_ok s hv nd (by decide)]
  rfl

/-- distance of the foot point from the outer end of the upper side -/
noncomputable def over2 (s : PSolver) (nd : Node) : ℝ :=
  √(((foot2 s nd).1 - s.e.R * cos s.e.a) ^ 2 + ((foot2 s nd).2 - s.e.R * sin s.e.a) ^ 2)

theorem doExtend2Right_ok (hv : src.Valid s.bas.bDesc) :
    doExtend2Right s src nd = .ok (|over2 s nd| + |sdist2 s nd|,
      extendArbitrary s.k (radiusArgs (sdist2 s nd) (shiftTab (xiTab s src s.e.R 2) (over2 s nd)))) := by
  unfold doExtend2Right
  simp only []
  rw [grp_ok, ok_bind, sdr_ok, ok_bind, doExtendTaylorR_ok s hv nd (by decide)]
  rfl

/-! ## Linearity -/

theorem taylorSum5 (d0 d1 d2 d3 d4 : ℂ) (n : ℝ) :
    taylorSum [d0, d1, d2, d3, d4] n = d0 + d1 * n + d2 / 2 * n ^ 2 + d3 / 6 * n ^ 3 + d4 / 24 * n ^ 4 := by
  simp [taylorSum, Nat.factorial]

abbrev Tab := ℕ × Fin 2 → ℂ

theorem extendArbitrary_radius_lin (k n : ℝ) :
    IsLinearMap ℂ fun x : Tab => extendArbitrary k (radiusArgs n x) := by
  constructor
  · intro x y
    simp only [extendArbitrary, arcDerivs, radiusArgs, taylorSum5, Pi.add_apply]
    ring
  · intro c x
    simp only [extendArbitrary, arcDerivs, radiusArgs, taylorSum5, Pi.smul_apply, smul_eq_mul]
    ring

theorem extendPolar_lin (k : ℝ) (r : ℝ → ℝ) (n th : ℝ) :
    IsLinearMap ℂ fun x : Tab => extendPolar k (outerArgs r n th x) := by
  constructor
  · intro x y
    simp only [extendPolar, extendArbitrary, arcDerivs, polarToArc, outerArgs, taylorSum5, Pi.add_apply]
    ring
  · intro c x
    simp only [extendPolar, extendArbitrary, arcDerivs, polarToArc, outerArgs, taylorSum5, Pi.smul_apply,
      smul_eq_mul]
    ring

theorem shiftTab_lin (delta : ℝ) : IsLinearMap ℂ fun x : Tab => shiftTab x delta := by
  constructor
  · intro x y
    funext t
    simp only [shiftTab, Pi.add_apply, ← sum_add_distrib]
    exact sum_congr rfl fun j _ => by ring
  · intro c x
    funext t
    simp only [shiftTab, Pi.smul_apply, smul_eq_mul, mul_sum]
    exact sum_congr rfl fun j _ => by ring

/-- the cached boundary coordinates exist where they are needed -/
def HasCoord (s : PSolver) (sid : Fin 3) (nd : Node) : Prop := sid = 0 → ∃ c, s.cache nd = some (some c)

/-- every extension is a fixed linear functional of the derivatives of the data at one argument -/
theorem doExtend_linear (sid : Fin 3) (et : EType) (nd : Node) (hc : HasCoord s sid nd) :
    ∃ (elen arg : ℝ) (Φ : Tab → ℂ), IsLinearMap ℂ Φ ∧
      ∀ src : XiSrc, src.Valid s.bas.bDesc → doExtend s src sid et nd = .ok (elen, Φ (xiTab s src arg sid)) := by
  have h0 := hc
  fin_cases sid
  · obtain ⟨c, hc⟩ := h0 rfl
    rcases et with _ | _ | _
    · exact ⟨_, _, _, (IsLinearMap.mk' _ (extendPolar_lin s.k s.e.evalR c.1 c.2) ∘ₗ
        IsLinearMap.mk' _ (shiftTab_lin (c.2 - s.e.a))).isLinear, fun src hv => doExtend0Left_ok s hv hc⟩
    · exact ⟨_, _, _, extendPolar_lin s.k s.e.evalR c.1 c.2, fun src hv => doExtend0Standard_ok s hv hc⟩
    · exact ⟨_, _, _, (IsLinearMap.mk' _ (extendPolar_lin s.k s.e.evalR c.1 c.2) ∘ₗ
        IsLinearMap.mk' _ (shiftTab_lin (c.2 - 2 * π))).isLinear, fun src hv => doExtend0Right_ok s hv hc⟩
  · rcases et with _ | _ | _
    · exact ⟨_, _, _, (IsLinearMap.mk' _ (extendArbitrary_radius_lin s.k (s.e.coord nd).2) ∘ₗ
        IsLinearMap.mk' _ (shiftTab_lin (s.e.coord nd).1)).isLinear, fun src hv => doExtend1Left_ok s hv⟩
    · exact ⟨_, _, _, extendArbitrary_radius_lin s.k (s.e.coord nd).2, fun src hv => doExtend1Standard_ok s hv⟩
    · exact ⟨_, _, _, (IsLinearMap.mk' _ (extendArbitrary_radius_lin s.k (s.e.coord nd).2) ∘ₗ
        IsLinearMap.mk' _ (shiftTab_lin ((s.e.coord nd).1 - s.e.R))).isLinear,
        fun src hv => doExtend1Right_ok s hv⟩
  · rcases et with _ | _ | _
    · exact ⟨_, _, _, (IsLinearMap.mk' _ (extendArbitrary_radius_lin s.k (sdist2 s nd)) ∘ₗ
        IsLinearMap.mk' _ (shiftTab_lin (-√((foot2 s nd).1 ^ 2 + (foot2 s nd).2 ^ 2)))).isLinear,
        fun src hv => doExtend2Left_ok s hv⟩
    · exact ⟨_, _, _, extendArbitrary_radius_lin s.k (sdist2 s nd), fun src hv => doExtend2Standard_ok s hv⟩
    · exact ⟨_, _, _, (IsLinearMap.mk' _ (extendArbitrary_radius_lin s.k (sdist2 s nd)) ∘ₗ
        IsLinearMap.mk' _ (shiftTab_lin (over2 s nd))).isLinear, fun src hv => doExtend2Right_ok s hv⟩

/-- the table of the full data is the combination of the basis tables -/
theorem xiTab_full (c0 c1 : List ℂ) (arg : ℝ) (sid : Fin 3) :
    xiTab s (.full c0 c1) arg sid =
      ∑ JJ ∈ range s.bas.bDesc.length, (c0.getD JJ 0 • xiTab s (.basis JJ 0) arg sid +
        c1.getD JJ 0 • xiTab s (.basis JJ 1) arg sid) := by
  have hb : ∀ JJ ∈ range s.bas.bDesc.length, ∀ (bi : Fin 2) (t : ℕ × Fin 2), xiTab s (.basis JJ bi) arg sid t =
      if t.2 = bi then (bval s t.1 JJ arg sid : ℂ) else 0 := by
    intro JJ hJ bi t
    unfold xiTab
    rw [sum_eq_single JJ]
    · by_cases h : t.2 = bi <;> simp [XiSrc.val, h]
    · intro b _ hb; simp [XiSrc.val, hb]
    · intro h; exact absurd hJ h
  funext t
  rw [Finset.sum_apply]
  unfold xiTab
  refine sum_congr rfl fun JJ hJ => ?_
  simp only [Pi.add_apply, Pi.smul_apply, smul_eq_mul]
  have e0 := hb JJ hJ 0 t
  have e1 := hb JJ hJ 1 t
  unfold xiTab at e0 e1
  rw [e0, e1]
  obtain ⟨m, i⟩ := t
  fin_cases i <;> simp [XiSrc.val]

end Pot
