import Verif.Spec.SourceMix
import Verif.Proofs.MinLstsq
import Verif.Props.InhomoError

/-! # The source extension is real-linear in the source -/

namespace Pot
open Spec Finset ComplexConjugate

/-- three computations: when the first two succeed so does the third, with related values -/
def Rel3 {α : Type} (P : α → α → α → Prop) (x1 x2 x3 : Py α) : Prop :=
  ∀ a1 a2, x1 = .ok a1 → x2 = .ok a2 → ∃ a3, x3 = .ok a3 ∧ P a1 a2 a3

theorem Rel3.same {α : Type} (x : Py α) : Rel3 (fun a b c => b = a ∧ c = a) x x x := by
  intro a1 a2 h1 h2
  exact ⟨a1, h1, by rw [h1] at h2; exact (Except.ok.inj h2).symm, rfl⟩

theorem Rel3.pure {α : Type} {P : α → α → α → Prop} {a b c : α} (h : P a b c) :
    Rel3 P (pure a : Py α) (pure b) (pure c) := by
  intro a1 a2 h1 h2
  cases h1; cases h2
  exact ⟨c, rfl, h⟩

theorem Rel3.bind {α β : Type} {P : α → α → α → Prop} {Q : β → β → β → Prop} {x1 x2 x3 : Py α} {f1 f2 f3 : α → Py β}
    (h : Rel3 P x1 x2 x3) (hf : ∀ a b c, P a b c → Rel3 Q (f1 a) (f2 b) (f3 c)) :
    Rel3 Q (x1 >>= f1) (x2 >>= f2) (x3 >>= f3) := by
  intro b1 b2 h1 h2
  rcases e1 : x1 with er | a1
  · rw [e1, error_bind] at h1; cases h1
  rcases e2 : x2 with er | a2
  · rw [e2, error_bind] at h2; cases h2
  obtain ⟨a3, e3, hP⟩ := h a1 a2 e1 e2
  rw [e1, ok_bind] at h1
  rw [e2, ok_bind] at h2
  rw [e3, ok_bind]
  exact hf _ _ _ hP _ _ h1 h2

/-- the relation on pairs (length, value) -/
def PV (m : Mix) (a b c : ℝ × ℂ) : Prop := b.1 = a.1 ∧ c.1 = a.1 ∧ c.2 = m.app a.2 b.2

/-- the relation on arrays -/
def AV {n : ℕ} (m : Mix) (a b c : Arr n) : Prop := ∀ i j, c i j = m.app (a i j) (b i j)

theorem mix_real (m : Mix) (x y : ℂ) (r : ℝ) : m.app (x * r) (y * r) = m.app x y * r :=
  Mix.app_mul' m (Complex.conj_ofReal r) x y

theorem dot2_mix (m : Mix) (g h : ℂ × ℂ) (v : ℝ × ℝ) : dot2 (m.app2 g h) v = m.app (dot2 g v) (dot2 h v) := by
  simp only [dot2, Mix.app2, Mix.app_add, mix_real]

theorem hdot_mix (m : Mix) (g h : (ℂ × ℂ) × (ℂ × ℂ)) (v : ℝ × ℝ) :
    hdot (m.app4 g h) v = m.app2 (hdot g v) (hdot h v) := by
  simp only [hdot, Mix.app4, dot2_mix]; rfl

theorem taylor5_mix (m : Mix) (x y : ℕ → ℂ) (n : ℝ) :
    taylorSum [m.app (x 0) (y 0), m.app (x 1) (y 1), m.app (x 2) (y 2), m.app (x 3) (y 3), m.app (x 4) (y 4)] n =
      m.app (taylorSum [x 0, x 1, x 2, x 3, x 4] n) (taylorSum [y 0, y 1, y 2, y 3, y 4] n) := by
  simp only [taylorSum5, Mix.app, map_add, map_mul, map_div₀, map_pow, Complex.conj_ofReal, Complex.conj_ofNat]
  ring

theorem inhomoArb_mix (m : Mix) (k n c : ℝ) (x y x' y' x2 y2 x3 y3 : ℂ) :
    inhomoExtendArbitrary k ⟨n, m.app x y, m.app x' y', m.app x2 y2, m.app x3 y3, c⟩ =
      m.app (inhomoExtendArbitrary k ⟨n, x, x', x2, x3, c⟩) (inhomoExtendArbitrary k ⟨n, y, y', y2, y3, c⟩) := by
  simp only [inhomoExtendArbitrary, inhomoDerivs, taylorSum5, Mix.app, map_add, map_sub, map_mul, map_div₀, map_pow,
    map_zero, Complex.conj_ofReal, Complex.conj_ofNat]
  ring

theorem inhomoD2Fs_mix (m : Mix) (x y x2 y2 x3 y3 x4 y4 x5 y5 : ℂ) (t1 t2 t3 t4 : ℝ) :
    inhomoD2Fs ⟨m.app x y, m.app x2 y2, m.app x3 y3, m.app x4 y4, m.app x5 y5, t1, t2, t3, t4⟩ =
      m.app (inhomoD2Fs ⟨x, x2, x3, x4, x5, t1, t2, t3, t4⟩) (inhomoD2Fs ⟨y, y2, y3, y4, y5, t1, t2, t3, t4⟩) := by
  simp only [inhomoD2Fs, Mix.app, map_add, map_mul, map_pow, Complex.conj_ofReal]
  ring

section
variable {m : Mix} {s1 s2 s3 : Source} (H : SrcRel m s1 s2 s3) (s : PSolver)
include H

theorem rel_grad (x y : ℝ) : Rel3 (fun a b c => c = m.app2 a b) (s1.grad x y) (s2.grad x y) (s3.grad x y) :=
  fun g1 g2 h1 h2 => ⟨_, H.grad x y g1 g2 h1 h2, rfl⟩

theorem rel_hess (x y : ℝ) : Rel3 (fun a b c => c = m.app4 a b) (s1.hess x y) (s2.hess x y) (s3.hess x y) :=
  fun g1 g2 h1 h2 => ⟨_, H.hess x y g1 g2 h1 h2, rfl⟩

theorem rel_gradPolar (x y : ℝ) :
    Rel3 (fun a b c => c = m.app2 a b) (s1.gradPolar x y) (s2.gradPolar x y) (s3.gradPolar x y) :=
  fun g1 g2 h1 h2 => ⟨_, H.gradPolar x y g1 g2 h1 h2, rfl⟩

theorem rel_hessPolar (x y : ℝ) :
    Rel3 (fun a b c => c = m.app4 a b) (s1.hessPolar x y) (s2.hessPolar x y) (s3.hessPolar x y) :=
  fun g1 g2 h1 h2 => ⟨_, H.hessPolar x y g1 g2 h1 h2, rfl⟩

theorem extendFValue_mix (x y x0 y0 : ℝ) :
    Rel3 (fun a b c => c = m.app a b) (extendFValue s1 x y x0 y0) (extendFValue s2 x y x0 y0) (extendFValue s3 x y x0 y0) := by
  unfold extendFValue
  refine Rel3.bind (Rel3.same _) ?_
  rintro v _ _ ⟨rfl, rfl⟩
  refine Rel3.bind (rel_grad H x0 y0) ?_
  rintro g1 g2 _ rfl
  refine Rel3.bind (rel_hess H x0 y0) ?_
  rintro h1 h2 _ rfl
  refine Rel3.pure ?_
  simp only [H.f, hdot_mix, dot2_mix, Mix.app, map_add, map_mul, map_div₀, map_pow, Complex.conj_ofReal, map_natCast]
  ring

theorem doInhomo0Standard_mix (nd : Node) :
    Rel3 (PV m) (doInhomo0Standard { s with src := s1 } nd) (doInhomo0Standard { s with src := s2 } nd)
      (doInhomo0Standard { s with src := s3 } nd) := by
  unfold doInhomo0Standard
  refine Rel3.bind (Rel3.same (cacheGet s nd)) ?_
  rintro c _ _ ⟨rfl, rfl⟩
  refine Rel3.bind (Rel3.same _) ?_
  rintro v _ _ ⟨rfl, rfl⟩
  refine Rel3.bind (rel_gradPolar H _ _) ?_
  rintro g1 g2 _ rfl
  refine Rel3.bind (rel_hessPolar H _ _) ?_
  rintro h1 h2 _ rfl
  refine Rel3.pure ⟨rfl, rfl, ?_⟩
  simp only [H.fPolar, H.dFth, H.d2Fth, H.dFr, H.d2Fr, H.d2Frth, hdot_mix, dot2_mix]
  unfold inhomoExtendPolar
  rw [← inhomoArb_mix, ← inhomoD2Fs_mix, mix_real]

theorem extendInhomo0lr_mix (nd : Node) (sid : Fin 3) :
    Rel3 (PV m) (extendInhomo0lr { s with src := s1 } nd sid) (extendInhomo0lr { s with src := s2 } nd sid)
      (extendInhomo0lr { s with src := s3 } nd sid) := by
  unfold extendInhomo0lr
  refine Rel3.bind (Rel3.same (cacheGet s nd)) ?_
  rintro c _ _ ⟨rfl, rfl⟩
  refine Rel3.bind (Rel3.same _) ?_
  rintro v _ _ ⟨rfl, rfl⟩
  refine Rel3.bind (rel_gradPolar H _ _) ?_
  rintro g1 g2 _ rfl
  refine Rel3.bind (rel_hessPolar H _ _) ?_
  rintro h1 h2 _ rfl
  refine Rel3.bind (Rel3.same _) ?_
  rintro w _ _ ⟨rfl, rfl⟩
  refine Rel3.pure ⟨rfl, rfl, ?_⟩
  simp only [H.fPolar, H.dFth, H.d2Fth, H.dFr, H.d2Fr, H.d2Frth, hdot_mix, dot2_mix]
  unfold inhomoExtendPolar
  rw [← inhomoArb_mix, ← inhomoD2Fs_mix]
  congr 1
  simp only [InhomoArgs.mk.injEq, true_and, and_true]
  refine ⟨?_, ?_, ?_⟩
  · simp only [fTaylor_three, Mix.app, map_add, map_mul, map_div₀, map_pow, Complex.conj_ofReal, Complex.conj_ofNat]
    ring
  · split_ifs <;> simp only [dot2, Mix.app2, Mix.app, map_add, map_mul, map_neg, map_one, Complex.conj_ofReal] <;> ring
  · congr 1
    simp only [InhomoPolarArgs.mk.injEq, true_and, and_true]
    constructor <;> simp only [dot2, Mix.app, map_add, map_mul, Complex.conj_ofReal] <;> ring

theorem extendInhomo12r_mix (nd : Node) (sid : Fin 3) :
    Rel3 (PV m) (extendInhomo12r { s with src := s1 } nd sid) (extendInhomo12r { s with src := s2 } nd sid)
      (extendInhomo12r { s with src := s3 } nd sid) := by
  unfold extendInhomo12r
  by_cases h : sid = 1
  · simp only [if_pos h]
    refine Rel3.bind (Rel3.same _) ?_
    rintro q _ _ ⟨rfl, rfl⟩
    refine Rel3.bind (Rel3.same _) ?_
    rintro v _ _ ⟨rfl, rfl⟩
    refine Rel3.bind (rel_grad H _ _) ?_
    rintro g1 g2 _ rfl
    refine Rel3.bind (rel_hess H _ _) ?_
    rintro h1 h2 _ rfl
    refine Rel3.pure ⟨rfl, rfl, ?_⟩
    simp only [H.f, hdot_mix, dot2_mix]
    rw [← inhomoArb_mix]
    congr 1
    simp only [InhomoArgs.mk.injEq, true_and, and_true]
    refine ⟨?_, ?_⟩
    · simp only [fTaylor_three, Mix.app, map_add, map_mul, map_div₀, map_pow, Complex.conj_ofReal, Complex.conj_ofNat]
      ring
    · split_ifs <;> simp only [dot2, Mix.app2, Mix.app, map_add, map_mul, map_neg, map_one, Complex.conj_ofReal] <;> ring
  · simp only [if_neg h]
    refine Rel3.bind (Rel3.same _) ?_
    rintro n _ _ ⟨rfl, rfl⟩
    refine Rel3.bind (Rel3.same _) ?_
    rintro q _ _ ⟨rfl, rfl⟩
    refine Rel3.bind (Rel3.same _) ?_
    rintro q _ _ ⟨rfl, rfl⟩
    refine Rel3.bind (Rel3.same _) ?_
    rintro v _ _ ⟨rfl, rfl⟩
    refine Rel3.bind (rel_grad H _ _) ?_
    rintro g1 g2 _ rfl
    refine Rel3.bind (rel_hess H _ _) ?_
    rintro h1 h2 _ rfl
    refine Rel3.pure ⟨rfl, rfl, ?_⟩
    simp only [H.f, hdot_mix, dot2_mix]
    rw [← inhomoArb_mix]
    congr 1
    simp only [InhomoArgs.mk.injEq, true_and, and_true]
    refine ⟨?_, ?_⟩
    · simp only [fTaylor_three, Mix.app, map_add, map_mul, map_div₀, map_pow, Complex.conj_ofReal, Complex.conj_ofNat]
      ring
    · split_ifs <;> simp only [dot2, Mix.app2, Mix.app, map_add, map_mul, map_neg, map_one, Complex.conj_ofReal] <;> ring

theorem calcInhomoRadius_mix (x0 y0 x1 y1 : ℝ) (t : ℝ × ℝ) (n : ℝ) :
    Rel3 (PV m) (calcInhomoRadius { s with src := s1 } x0 y0 x1 y1 t n) (calcInhomoRadius { s with src := s2 } x0 y0 x1 y1 t n)
      (calcInhomoRadius { s with src := s3 } x0 y0 x1 y1 t n) := by
  unfold calcInhomoRadius
  by_cases h : x0 = 0 ∧ y0 = 0
  · simp only [if_pos h]
    refine Rel3.bind (rel_hess H _ _) ?_
    rintro h1 h2 _ rfl
    refine Rel3.bind (rel_grad H _ _) ?_
    rintro g1 g2 _ rfl
    refine Rel3.pure ⟨rfl, rfl, ?_⟩
    simp only [H.f, hdot_mix, dot2_mix]
    rw [← inhomoArb_mix, mix_real]
    congr 3
    simp only [dot2, Mix.app2, Mix.app, map_add, map_mul, Complex.conj_ofReal]
    ring
  · simp only [if_neg h]
    refine Rel3.bind (rel_grad H _ _) ?_
    rintro g1 g2 _ rfl
    refine Rel3.bind (rel_hess H _ _) ?_
    rintro h1 h2 _ rfl
    refine Rel3.pure ⟨rfl, rfl, ?_⟩
    simp only [H.f, hdot_mix, dot2_mix]
    rw [← inhomoArb_mix, mix_real]

theorem extendInhomoRadius_mix (nd : Node) (sid : Fin 3) :
    Rel3 (PV m) (extendInhomoRadius { s with src := s1 } nd sid) (extendInhomoRadius { s with src := s2 } nd sid)
      (extendInhomoRadius { s with src := s3 } nd sid) := by
  unfold extendInhomoRadius
  by_cases h : sid = 1
  · simp only [if_pos h]
    exact calcInhomoRadius_mix H s _ _ _ _ _ _
  · simp only [if_neg h]
    refine Rel3.bind (Rel3.same _) ?_
    rintro v _ _ ⟨rfl, rfl⟩
    refine Rel3.bind (Rel3.same _) ?_
    rintro w _ _ ⟨rfl, rfl⟩
    exact calcInhomoRadius_mix H s _ _ _ _ _ _

theorem doInhomo_mix (h1 : s1.homogeneous = false) (h2 : s2.homogeneous = false) (h3 : s3.homogeneous = false)
    (sid : Fin 3) (et : EType) (nd : Node) :
    Rel3 (PV m) (doInhomo { s with src := s1 } sid et nd) (doInhomo { s with src := s2 } sid et nd)
      (doInhomo { s with src := s3 } sid et nd) := by
  unfold doInhomo
  simp only [h1, h2, h3, Bool.false_eq_true, if_false]
  fin_cases sid <;> cases et
  exacts [extendInhomo0lr_mix H s nd 2, doInhomo0Standard_mix H s nd, extendInhomo0lr_mix H s nd 1,
    extendInhomoRadius_mix H s nd 1, extendInhomoRadius_mix H s nd 1, extendInhomo12r_mix H s nd 1,
    extendInhomoRadius_mix H s nd 2, extendInhomoRadius_mix H s nd 2, extendInhomo12r_mix H s nd 2]

omit H in
theorem arrSet_mix {n : ℕ} {A B C : Arr n} (h : AV m A B C) (i j : ℤ) {x y z : ℂ} (hz : z = m.app x y) :
    Rel3 (AV m) (arrSet A i j x) (arrSet B i j y) (arrSet C i j z) := by
  unfold arrSet
  refine Rel3.bind (Rel3.same _) ?_
  rintro p _ _ ⟨rfl, rfl⟩
  refine Rel3.bind (Rel3.same _) ?_
  rintro q _ _ ⟨rfl, rfl⟩
  refine Rel3.pure fun a b => ?_
  show ite _ _ _ = _
  split_ifs with hc <;> simp only [hz, h a b]

theorem extendFLoop_mix {n : ℕ} (L : List Node) {A B C : Arr n} (h : AV m A B C) :
    Rel3 (AV m) (extendFLoop { s with src := s1 } L A) (extendFLoop { s with src := s2 } L B)
      (extendFLoop { s with src := s3 } L C) := by
  induction L generalizing A B C with
  | nil => exact Rel3.pure h
  | cons nd L ih =>
    unfold extendFLoop
    refine Rel3.bind (Rel3.same (extendFPoint s nd)) ?_
    rintro _ _ p ⟨rfl, rfl⟩
    rcases p with _ | p
    · exact Rel3.pure h
    · simp only []
      refine Rel3.bind (extendFValue_mix H _ _ _ _) ?_
      rintro x y z hz
      refine Rel3.bind (arrSet_mix h _ _ hz) ?_
      intro a b c habc
      exact ih habc

omit H in
theorem fold_mix (hf : ∀ x y, s3.f x y = m.app (s1.f x y) (s2.f x y)) {n : ℕ} (L : List Node) {A B C : Arr n}
    (h : AV m A B C) :
    Rel3 (AV m) (L.foldlM (fun f nd => arrSet f nd.1 nd.2 (s1.f (s.e.coord nd).1 (s.e.coord nd).2)) A)
      (L.foldlM (fun f nd => arrSet f nd.1 nd.2 (s2.f (s.e.coord nd).1 (s.e.coord nd).2)) B)
      (L.foldlM (fun f nd => arrSet f nd.1 nd.2 (s3.f (s.e.coord nd).1 (s.e.coord nd).2)) C) := by
  induction L generalizing A B C with
  | nil => exact Rel3.pure h
  | cons nd L ih =>
    simp only [List.foldlM_cons]
    refine Rel3.bind (arrSet_mix h _ _ (hf _ _)) ?_
    intro a b c habc
    exact ih habc

theorem setupF_mix {n : ℕ} (iter : Iter) (h1 : s1.homogeneous = false) (h2 : s2.homogeneous = false)
    (h3 : s3.homogeneous = false) :
    Rel3 (AV (n := n) m) (setupF iter { s with src := s1 }) (setupF iter { s with src := s2 })
      (setupF iter { s with src := s3 }) := by
  unfold setupF
  refine Rel3.bind (fold_mix s H.f _ fun _ _ => (Mix.app_zero m).symm) ?_
  intro a b c habc
  unfold extendF
  simp only [h1, h2, h3, Bool.false_eq_true, if_false]
  exact extendFLoop_mix H s _ habc

end

end Pot
