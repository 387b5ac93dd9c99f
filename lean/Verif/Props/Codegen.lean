import Verif.Model.Codegen
import Verif.Props.SympyProblem
import Verif.Props.Smooth
import Verif.Props.Basis

/-!
# C109: the programs that generate code
-/

namespace Pot
open Spec Real Filter Topology

/-- the value of the definition with this signature -/
noncomputable def genValue (l : List Gen) (sig : String) (x y : ℝ) : Option GenVal := (l.find? (·.signature == sig)).map (·.value x y)

/-! ## Chebyshev polynomials -/

theorem chebF_step (J : ℕ) (n : ℕ) (hn : n < 5) {t : ℝ} (h : t ∈ Set.Ioo (-1 : ℝ) 1) : HasDerivAt (chebF n J) (chebF (n + 1) J t) t := by
  interval_cases n
  · exact chebF_zero J h
  · exact chebF_one J h
  · exact chebF_two J h
  · exact chebF_three J h
  · exact chebF_four J h

theorem chebF_iter (J : ℕ) : ∀ n ≤ 5, ∀ t ∈ Set.Ioo (-1 : ℝ) 1, deriv^[n] (fun t => cos (J * arccos t)) t = chebF n J t := by
  intro n
  induction n with
  | zero => intro _ t _; rfl
  | succ n ih =>
    intro hn t ht
    rw [Function.iterate_succ_apply']
    have he : deriv^[n] (fun t => cos (J * arccos t)) =ᶠ[𝓝 t] chebF n J := by
      filter_upwards [isOpen_Ioo.mem_nhds ht] with s hs
      exact ih (by omega) s hs
    rw [he.deriv_eq]
    exact (chebF_step J n (by omega) ht).deriv

/-- **C109** chebyshev_derivs.py prints the derivatives of the orders 1 to 5; the five functions of chebyshev.py, which were made from its
output, are these derivatives, for every degree, inside of the interval. -/
theorem C109_chebyshev (J : ℕ) :
    (chebyshevDerivs J).map Prod.fst = [1, 2, 3, 4, 5] ∧
    ∀ x ∈ chebyshevDerivs J, ∀ t ∈ Set.Ioo (-1 : ℝ) 1, evalDnT x.1 J t = .ok (x.2 t) := by
  refine ⟨rfl, fun x hx t ht => ?_⟩
  obtain ⟨n, hn, rfl⟩ := List.mem_map.1 hx
  rw [List.mem_range'] at hn
  obtain ⟨i, hi, rfl⟩ := hn
  show evalDnT (1 + 1 * i) J t = .ok (deriv^[1 + 1 * i] (fun t => cos (J * arccos t)) t)
  rw [chebF_iter J _ (by omega) t ht, evalDnT_eq J ht _ (by omega)]

/-! ## Sources -/

section
variable {Ω : Set (ℝ × ℝ)} {U : ℕ → ℕ → ℝ × ℝ → ℂ} {u : ℝ → ℝ → ℂ}

/-- the derivatives of a function of a jet -/
theorem jet_diff {n i j : ℕ} (hU : JetOn Ω n U) (hij : i + j < n) {g : ℝ → ℝ → ℂ} (hg : ∀ p ∈ Ω, g p.1 p.2 = U i j p) :
    (∀ p ∈ Ω, spDFr g p.1 p.2 = U (i + 1) j p) ∧ ∀ p ∈ Ω, spDFth g p.1 p.2 = U i (j + 1) p := by
  constructor <;> intro p hp
  · have h := JetOn.along hU hij (hasDerivAt_id' p.1) (hasDerivAt_const p.1 p.2) hp
    have he : (fun ρ => g ρ p.2) =ᶠ[𝓝 p.1] fun ρ => U i j (ρ, p.2) := by
      have hm : Tendsto (fun ρ : ℝ => (ρ, p.2)) (𝓝 p.1) (𝓝 p) := Continuous.tendsto' (by fun_prop) _ _ rfl
      filter_upwards [hm.eventually (hU.isOpen.mem_nhds hp)] with ρ hρ
      exact hg _ hρ
    refine (h.congr_of_eventuallyEq he).deriv.trans ?_
    simp
  · have h := JetOn.along hU hij (hasDerivAt_const p.2 p.1) (hasDerivAt_id' p.2) hp
    have he : (fun t => g p.1 t) =ᶠ[𝓝 p.2] fun t => U i j (p.1, t) := by
      have hm : Tendsto (fun t : ℝ => (p.1, t)) (𝓝 p.2) (𝓝 p) := Continuous.tendsto' (by fun_prop) _ _ rfl
      filter_upwards [hm.eventually (hU.isOpen.mem_nhds hp)] with ρ hρ
      exact hg _ hρ
    refine (h.congr_of_eventuallyEq he).deriv.trans ?_
    simp

/-- the derivatives of `u_xx + u_yy + k² u` -/
def sourceJet (k : ℝ) (U : ℕ → ℕ → ℝ × ℝ → ℂ) : ℕ → ℕ → ℝ × ℝ → ℂ := fun i j p => U (i + 2) j p + U i (j + 2) p + (k : ℂ) ^ 2 * U i j p

theorem sourceJet_jetOn (k : ℝ) (hU : JetOn Ω 4 U) : JetOn Ω 2 (sourceJet k U) := by
  refine ⟨hU.isOpen, fun i j hij p hp => ?_⟩
  have h1 := hU.diff (i + 2) j (by omega) p hp
  have h2 := hU.diff i (j + 2) (by omega) p hp
  have h3 := (hU.diff i j (by omega) p hp).const_mul ((k : ℂ) ^ 2)
  refine ((h1.add h2).add h3).congr_fderiv ?_
  ext <;> simp [grad2, sourceJet, show i + 2 + 1 = i + 1 + 2 by ring, show j + 2 + 1 = j + 1 + 2 by ring]

/-- `f` of `find_derivs` -/
theorem genF_eq (k : ℝ) (hU : JetOn Ω 4 U) (hu : ∀ p ∈ Ω, u p.1 p.2 = U 0 0 p) : ∀ p ∈ Ω, genF k u p.1 p.2 = sourceJet k U 0 0 p := by
  intro p hp
  obtain ⟨a1, a2⟩ := jet_diff hU (by norm_num) hu
  obtain ⟨b1, -⟩ := jet_diff hU (i := 1) (j := 0) (by norm_num) a1
  obtain ⟨-, b2⟩ := jet_diff hU (i := 0) (j := 1) (by norm_num) a2
  unfold genF
  rw [b1 p hp, b2 p hp, hu p hp]
  rfl

/-- **C109** `find_derivs`: for every `u` with four derivatives on an open set the printed `eval_f` is the source for which `u` solves the
Helmholtz equation, and the printed gradient and Hessian are those of this source. -/
theorem C109_cartesian (k : ℝ) (hU : JetOn Ω 4 U) (hu : ∀ p ∈ Ω, u p.1 p.2 = U 0 0 p) :
    JetOn Ω 2 (sourceJet k U) ∧ Helmholtz Ω k U (sourceJet k U 0 0) ∧
    ∀ x y, (x, y) ∈ Ω →
      genValue (findDerivs k u) "eval_expected(self, x, y)" x y = some (.num (U 0 0 (x, y))) ∧
      genValue (findDerivs k u) "eval_f(self, x, y)" x y = some (.num (sourceJet k U 0 0 (x, y))) ∧
      genValue (findDerivs k u) "eval_grad_f(self, x, y)" x y = some (.vec (sourceJet k U 1 0 (x, y), sourceJet k U 0 1 (x, y))) ∧
      genValue (findDerivs k u) "eval_hessian_f(self, x, y)" x y = some (.mat
        ((sourceJet k U 2 0 (x, y), sourceJet k U 1 1 (x, y)), (sourceJet k U 1 1 (x, y), sourceJet k U 0 2 (x, y)))) := by
  have hS := sourceJet_jetOn k hU
  refine ⟨hS, fun p _ => rfl, fun x y hp => ?_⟩
  have hf := genF_eq k hU hu
  obtain ⟨a1, a2⟩ := jet_diff hS (by norm_num) hf
  obtain ⟨b1, b2⟩ := jet_diff hS (i := 1) (j := 0) (by norm_num) a1
  obtain ⟨b3, b4⟩ := jet_diff hS (i := 0) (j := 1) (by norm_num) a2
  refine ⟨?_, ?_, ?_, ?_⟩
  · show some (GenVal.num (u x y)) = _
    rw [hu _ hp]
  · show some (GenVal.num (genF k u x y)) = _
    rw [hf _ hp]
  · show some (GenVal.vec (spDFr (genF k u) x y, spDFth (genF k u) x y)) = _
    rw [a1 _ hp, a2 _ hp]
  · show some (GenVal.mat ((spDFr (spDFr (genF k u)) x y, spDFth (spDFr (genF k u)) x y), (spDFr (spDFth (genF k u)) x y, spDFth (spDFth (genF k u)) x y))) = _
    rw [b1 _ hp, b2 _ hp, b3 _ hp, b4 _ hp]

/-- **C109** the comparison in the comment of the program: a problem with the printed methods and a `SympyProblem` with the printed source in
polar coordinates have the same polar derivatives, and away from the origin the same gradient and the same Hessian. -/
theorem C109_sympy (k AD : ℝ) (hU : JetOn Ω 4 U) (hu : ∀ p ∈ Ω, u p.1 p.2 = U 0 0 p) {r th : ℝ} (hr : r ≠ 0) (hp : polarPoint r th ∈ Ω) :
    let S := spSource AD (genFPolar k u)
    let x := (polarPoint r th).1
    let y := (polarPoint r th).2
    genValue (findDerivs k u) "eval_f(self, x, y)" x y = some (.num (S.fPolar r th)) ∧
    (∃ g, S.gradPolar r th = .ok g ∧ genValue (findDerivs k u) "eval_grad_f(self, x, y)" x y = some (.vec g)) ∧
    (∃ h, S.hessPolar r th = .ok h ∧ genValue (findDerivs k u) "eval_hessian_f(self, x, y)" x y = some (.mat h)) ∧
    genValue (findDerivs k u) "eval_d_f_r(self, r, th)" r th = some (.num (S.dFr r th)) ∧
    genValue (findDerivs k u) "eval_d2_f_r(self, r, th)" r th = some (.num (S.d2Fr r th)) ∧
    genValue (findDerivs k u) "eval_d_f_th(self, r, th)" r th = some (.num (S.dFth r th)) ∧
    genValue (findDerivs k u) "eval_d2_f_th(self, r, th)" r th = some (.num (S.d2Fth r th)) ∧
    genValue (findDerivs k u) "eval_d2_f_r_th(self, r, th)" r th = some (.num (S.d2Frth r th)) := by
  intro S x y
  obtain ⟨hS, -, h⟩ := C109_cartesian k hU hu
  obtain ⟨-, h2, h3, h4⟩ := h x y hp
  have hc : Continuous fun q : ℝ × ℝ => polarPoint q.1 q.2 := by unfold polarPoint; fun_prop
  have hΩ : ∀ᶠ q in 𝓝 (r, th), polarPoint q.1 q.2 ∈ Ω := hc.continuousAt.eventually_mem (hU.isOpen.mem_nhds hp)
  obtain ⟨g1, g2⟩ := C57_polar (f := genFPolar k u) hS hr hp (by
    filter_upwards [hΩ] with q hq
    exact genF_eq k hU hu _ hq)
  refine ⟨?_, ⟨_, g1, h3⟩, ⟨_, g2, h4⟩, rfl, rfl, rfl, rfl, rfl⟩
  rw [h2]
  show _ = some (GenVal.num (pyGet (spFPolar AD (genFPolar k u) r th)))
  unfold spFPolar
  rw [if_neg hr]
  exact congrArg (fun z => some (GenVal.num z)) (genF_eq k hU hu _ hp).symm

/-- functions that agree near a point have the same derivatives near it -/
theorem sp_congr {f g : ℝ → ℝ → ℂ} {q : ℝ × ℝ} (h : ∀ᶠ p in 𝓝 q, f p.1 p.2 = g p.1 p.2) :
    (∀ᶠ p in 𝓝 q, spDFr f p.1 p.2 = spDFr g p.1 p.2) ∧ ∀ᶠ p in 𝓝 q, spDFth f p.1 p.2 = spDFth g p.1 p.2 := by
  constructor <;> filter_upwards [eventually_eventually_nhds.2 h] with p hp
  · have hm : Tendsto (fun ρ : ℝ => (ρ, p.2)) (𝓝 p.1) (𝓝 p) := Continuous.tendsto' (by fun_prop) _ _ rfl
    exact Filter.EventuallyEq.deriv_eq (hm.eventually hp)
  · have hm : Tendsto (fun t : ℝ => (p.1, t)) (𝓝 p.2) (𝓝 p) := Continuous.tendsto' (by fun_prop) _ _ rfl
    exact Filter.EventuallyEq.deriv_eq (hm.eventually hp)

/-- **C109** `find_derivs_polar` on the same function in polar coordinates prints the same source and the same polar derivatives, away from
the origin. -/
theorem C109_polar (k : ℝ) (hU : JetOn Ω 4 U) (hu : ∀ p ∈ Ω, u p.1 p.2 = U 0 0 p) {up : ℝ → ℝ → ℂ}
    (hup : ∀ r th, polarPoint r th ∈ Ω → up r th = u (polarPoint r th).1 (polarPoint r th).2) {r th : ℝ} (hr : r ≠ 0) (hp : polarPoint r th ∈ Ω) :
    genValue (findDerivsPolar k up) "eval_f_polar(self, r, th)" r th =
      genValue (findDerivs k u) "eval_f(self, x, y)" (polarPoint r th).1 (polarPoint r th).2 ∧
    ∀ sig ∈ ["eval_d_f_r(self, r, th)", "eval_d2_f_r(self, r, th)", "eval_d_f_th(self, r, th)", "eval_d2_f_th(self, r, th)",
      "eval_d2_f_r_th(self, r, th)"],
      genValue (findDerivsPolar k up) sig r th = genValue (findDerivs k u) sig r th ∧ (genValue (findDerivs k u) sig r th).isSome := by
  have hU2 : JetOn Ω 2 U := ⟨hU.isOpen, fun i j h => hU.diff i j (by omega)⟩
  have hc : Continuous fun q : ℝ × ℝ => polarPoint q.1 q.2 := by unfold polarPoint; fun_prop
  have near : ∀ {r th : ℝ}, polarPoint r th ∈ Ω → ∀ᶠ q in 𝓝 (r, th), polarPoint q.1 q.2 ∈ Ω := fun hp =>
    hc.continuousAt.eventually_mem (hU.isOpen.mem_nhds hp)
  have key : ∀ {r th : ℝ}, r ≠ 0 → polarPoint r th ∈ Ω → genPolarF k up r th = genFPolar k u r th := by
    intro r th hr hp
    have hf : ∀ᶠ q in 𝓝 (r, th), up q.1 q.2 = U 0 0 (polarPoint q.1 q.2) := by
      filter_upwards [near hp] with q hq
      rw [hup _ _ hq, hu _ hq]
    obtain ⟨-, d1, -⟩ := (polar_first hU2 hp hf).self_of_nhds
    obtain ⟨e1, -, e3⟩ := polar_second hU2 hp hf
    have hr' : (r : ℂ) ≠ 0 := by exact_mod_cast hr
    have hcs : ((sin th : ℝ) : ℂ) ^ 2 + ((cos th : ℝ) : ℂ) ^ 2 = 1 := by exact_mod_cast sin_sq_add_cos_sq th
    have e1 : spDFr (spDFr up) r th = _ := e1
    have e3 : spDFth (spDFth up) r th = _ := e3
    have g : genFPolar k u r th = sourceJet k U 0 0 (polarPoint r th) := genF_eq k hU hu _ hp
    unfold genPolarF
    rw [g, d1, e1, e3, hf.self_of_nhds]
    simp only [sourceJet, zero_add]
    generalize ((cos th : ℝ) : ℂ) = C at *
    generalize ((sin th : ℝ) : ℂ) = S at *
    field_simp
    linear_combination (U 2 0 (polarPoint r th) + U 0 2 (polarPoint r th)) * (r : ℂ) * hcs
  have hev : ∀ᶠ q in 𝓝 (r, th), genPolarF k up q.1 q.2 = genFPolar k u q.1 q.2 := by
    have hne : ∀ᶠ q : ℝ × ℝ in 𝓝 (r, th), q.1 ≠ 0 := continuous_fst.continuousAt.eventually_ne hr
    filter_upwards [near hp, hne] with q hq hq'
    exact key hq' hq
  obtain ⟨a1, a2⟩ := sp_congr hev
  obtain ⟨b1, b2⟩ := sp_congr a1
  obtain ⟨-, b3⟩ := sp_congr a2
  refine ⟨?_, ?_⟩
  · show some (GenVal.num (genPolarF k up r th)) = some (GenVal.num (genFPolar k u r th))
    rw [key hr hp]
  · intro sig hs
    simp only [List.mem_cons, List.not_mem_nil, or_false] at hs
    rcases hs with rfl | rfl | rfl | rfl | rfl
    · exact ⟨congrArg (fun z => some (GenVal.num z)) a1.self_of_nhds, rfl⟩
    · exact ⟨congrArg (fun z => some (GenVal.num z)) b1.self_of_nhds, rfl⟩
    · exact ⟨congrArg (fun z => some (GenVal.num z)) a2.self_of_nhds, rfl⟩
    · exact ⟨congrArg (fun z => some (GenVal.num z)) b3.self_of_nhds, rfl⟩
    · exact ⟨congrArg (fun z => some (GenVal.num z)) b2.self_of_nhds, rfl⟩

end

/-- **C109** on the exact solutions of the shipped smooth problems: the sources are those of the problems - for `y cos x` the expression of
problems/smooth.py, for the others zero. -/
theorem C109_shipped (k : ℝ) :
    genFPolar k ycosExpected = ycosF k ∧ (∀ x y, genF k (sineExpected k) x y = 0) ∧ ∀ x y, genF k (fun x y => (eExpected k x y).1) x y = 0 := by
  have E : ∀ {u : ℝ → ℝ → ℂ} {grad f}, SmoothConsistent k u grad f → ∀ x y, genF k u x y = f x y := by
    intro u grad f h x y
    obtain ⟨U, hU, hu, -, hh⟩ := h.ex
    exact (genF_eq k (hU 4) (fun p _ => (hu p.1 p.2).symm) (x, y) trivial).trans (hh (x, y) trivial)
  refine ⟨?_, E (C56_sine k), E (C56_e k)⟩
  funext r th
  obtain ⟨h1, h2, -⟩ := C56_ycos k (AD := 1) one_pos
  have := E h1 (r * cos th) (r * sin th)
  unfold genFPolar
  rw [this]
  show pyGet (spF 1 (ycosF k) (r * cos th) (r * sin th)) = _
  rw [h2]
  unfold ycosF pyGet
  push_cast
  ring

/-! ## The hypotheses are met -/

/-- `y cos x`, everywhere -/
example : JetOn Set.univ 4 ycosJet ∧ ∀ p ∈ (Set.univ : Set (ℝ × ℝ)), ycosExpected p.1 p.2 = ycosJet 0 0 p :=
  ⟨ycosJet_jetOn 4, fun p _ => by simp [ycosJet, ycosExpected, sin_add_pi_div_two]⟩

/-- the printed gradient of the source of `y cos x` for `k = 2` at `(0, 1)` is `(0, 3)` -/
example : genValue (findDerivs 2 ycosExpected) "eval_grad_f(self, x, y)" 0 1 = some (.vec (0, 3)) := by
  obtain ⟨-, -, h⟩ := C109_cartesian (Ω := Set.univ) (U := ycosJet) (u := ycosExpected) 2 (ycosJet_jetOn 4)
    (fun p _ => by simp [ycosJet, ycosExpected, sin_add_pi_div_two])
  rw [(h 0 1 trivial).2.2.1]
  congr 3
  · have e3 : sin (π / 2 + 3 * (π / 2)) = 0 := by rw [show π / 2 + 3 * (π / 2) = 2 * π by ring, sin_two_pi]
    simp [sourceJet, ycosJet, e3]
  · have e2 : sin (π / 2 + 2 * (π / 2)) = -1 := by
      rw [show π / 2 + 2 * (π / 2) = π / 2 + π by ring, sin_add_pi, sin_pi_div_two]
    simp [sourceJet, ycosJet, e2]
    norm_num

/-- the second derivative of the Chebyshev polynomial of degree 3 at 1/2 -/
example : ((1 / 2 : ℝ) ∈ Set.Ioo (-1 : ℝ) 1) ∧ ∃ f, (2, f) ∈ chebyshevDerivs (3 : ℕ) :=
  ⟨⟨by norm_num, by norm_num⟩, _, List.mem_map.2 ⟨2, List.mem_range'.2 ⟨1, by norm_num, rfl⟩, rfl⟩⟩

end Pot
