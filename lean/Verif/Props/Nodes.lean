import Verif.Props.Sides

/-! # The extension at the nodes: the outer boundary, error bounds, and the corners -/

namespace Pot
open Spec Finset Real

variable (s : PSolver) {src : XiSrc} {nd : Node}

/-- the code's polar source methods at a boundary point: `F` is the source in Cartesian, `P` in polar coordinates; the
methods `eval_grad_f_polar` and `eval_hessian_f_polar` return Cartesian derivatives at the point -/
structure SrcPolarAt (src : Source) (F P : ℕ → ℕ → ℝ × ℝ → ℂ) (r th : ℝ) : Prop where
  f : src.fPolar r th = F 0 0 (polarPoint r th)
  grad : src.gradPolar r th = .ok (F 1 0 (polarPoint r th), F 0 1 (polarPoint r th))
  hess : src.hessPolar r th = .ok ((F 2 0 (polarPoint r th), F 1 1 (polarPoint r th)),
    (F 1 1 (polarPoint r th), F 0 2 (polarPoint r th)))
  dth : src.dFth r th = P 0 1 (r, th)
  d2th : src.d2Fth r th = P 0 2 (r, th)
  dr : src.dFr r th = P 1 0 (r, th)
  d2r : src.d2Fr r th = P 2 0 (r, th)
  d2rth : src.d2Frth r th = P 1 1 (r, th)

/-- the inhomogeneous extension from the outer boundary at a node off the boundary -/
theorem doInhomo0Standard_ok {F P : ℕ → ℕ → ℝ × ℝ → ℂ} {n th : ℝ} (hc : s.cache nd = some (some (n, th)))
    (hr : DifferentiableAt ℝ s.e.evalR th) (hp : 0 < s.e.evalR th ^ 2 + deriv s.e.evalR th ^ 2) (hs : SrcPolarAt s.src F P (s.e.evalR th) th)
    (hnd : s.e.coord nd =
      move (polarPoint (s.e.evalR th) th) (evalNormal s.e.evalR th).1 (evalNormal s.e.evalR th).2 n) (hn : n ≠ 0) :
    let r := s.e.evalR
    let p := polarPoint (r th) th
    let N := evalNormal r th
    doInhomo0Standard s nd = .ok (|n|, inhomoExtendPolar s.k
        { dFth := P 0 1 (r th, th), d2Fth := P 0 2 (r th, th), dFr := P 1 0 (r th, th), d2Fr := P 2 0 (r th, th),
          d2Frth := P 1 1 (r th, th), dThs := dThs r th, d2Ths := d2Ths r th, dRth := dRth r th, d2Rth := d2Rth r th }
        n (F 0 0 p) (dir1 F N.1 N.2 p) (dir2 F N.1 N.2 p) (curvTh r th)) := by
  intro r p N
  obtain ⟨-, hN, -⟩ := C45_frame hr hp
  obtain ⟨-, -, e, h1⟩ := normalize_normal (c := N.1) (d := N.2) hN hn
  have h1' : ((npSign n : ℝ) : ℂ) ^ 2 = 1 := by exact_mod_cast h1
  unfold doInhomo0Standard
  rw [cacheGet_ok hc, ok_bind]
  dsimp only
  have hv : ((s.e.coord nd).1 - s.e.evalR th * cos th, (s.e.coord nd).2 - s.e.evalR th * sin th) = (n * N.1, n * N.2) := by
    rw [hnd]; simp only [move, polarPoint]; ext <;> simp <;> exact Or.inl rfl
  rw [hv, e, ok_bind, hs.grad, ok_bind, hs.hess, ok_bind, pure_eq_ok, hs.f, hs.dth, hs.d2th, hs.dr, hs.d2r, hs.d2rth]
  congr 3
  · simp only [dot2, dir1]; push_cast
    linear_combination ((N.1 : ℂ) * F 1 0 p + N.2 * F 0 1 p) * h1'
  · simp only [dot2, hdot, dir2]; push_cast
    linear_combination ((N.1 : ℂ) ^ 2 * F 2 0 p + 2 * N.1 * N.2 * F 1 1 p + (N.2 : ℂ) ^ 2 * F 0 2 p) * h1'

/-- at a node exactly on the outer boundary the code normalises the zero vector: the inhomogeneous extension is nan -/
theorem doInhomo0Standard_nan {n th : ℝ} (hc : s.cache nd = some (some (n, th)))
    (hnd : s.e.coord nd = polarPoint (s.e.evalR th) th) : doInhomo0Standard s nd = .error .nanValue := by
  unfold doInhomo0Standard
  rw [cacheGet_ok hc, ok_bind]
  dsimp only
  have hv : ((s.e.coord nd).1 - s.e.evalR th * cos th, (s.e.coord nd).2 - s.e.evalR th * sin th) = (0, 0) := by
    rw [hnd]; simp [polarPoint]
  rw [hv]
  unfold normalize norm2
  simp [throw_eq_error]

/-- **C28** outer boundary: at every node off the boundary whose cached coordinates `(n, th)` are its normal coordinates,
the standard extension of the Cauchy data of a solution plus the extension of its source is the degree-4 Taylor
polynomial of the solution along the normal. -/
theorem C28_outer_node (hv : src.Valid s.bas.bDesc) (he : 0 < s.eps) (ha : s.e.a < 2 * π) (hR : 0 < s.e.R)
    (hr : ContDiff ℝ 4 s.e.evalR) (hp : ∀ t, 0 < s.e.evalR t ^ 2 + deriv s.e.evalR t ^ 2) {Ω : Set (ℝ × ℝ)} {U F : ℕ → ℕ → ℝ × ℝ → ℂ}
    (hU : JetOn Ω 4 U) (hF : JetOn Ω 2 F) (hpde : Helmholtz Ω s.k U (F 0 0)) {n th : ℝ}
    (hc : s.cache nd = some (some (n, th))) (h1 : s.e.a ≤ th) (h2 : th ≤ 2 * π)
    (hnd : s.e.coord nd =
      move (polarPoint (s.e.evalR th) th) (evalNormal s.e.evalR th).1 (evalNormal s.e.evalR th).2 n)
    {J : Set ℝ} (hJ : IsOpen J) (hth : th ∈ J) (hin : ∀ t ∈ J, polarPoint (s.e.evalR t) t ∈ Ω)
    {X0 X1 : ℕ → ℝ → ℂ} (k0 : DerivFam 4 J X0) (k1 : DerivFam 2 J X1)
    (e0 : ∀ t ∈ J, X0 0 t = U 0 0 (polarPoint (s.e.evalR t) t))
    (e1 : ∀ t ∈ J, X1 0 t = dir1 U (evalNormal s.e.evalR t).1 (evalNormal s.e.evalR t).2 (polarPoint (s.e.evalR t) t))
    (t0 : ∀ m ≤ 4, iteratedDeriv m (trace s src 0 0) th = X0 m th)
    (t1 : ∀ m ≤ 2, iteratedDeriv m (trace s src 0 1) th = X1 m th)
    {Ω' : Set (ℝ × ℝ)} {P : ℕ → ℕ → ℝ × ℝ → ℂ} (hP : JetOn Ω' 2 P) (hPin : ∀ t ∈ J, (s.e.evalR t, t) ∈ Ω')
    (eP : ∀ t ∈ J, P 0 0 (s.e.evalR t, t) = F 0 0 (polarPoint (s.e.evalR t) t))
    (hsrc : s.src.homogeneous = true ∧ (∀ i j q, F i j q = 0) ∧ (∀ i j q, P i j q = 0) ∨
      s.src.homogeneous = false ∧ n ≠ 0 ∧ SrcPolarAt s.src F P (s.e.evalR th) th) :
    ∃ v w, doExtend s src 0 .standard nd = .ok (|n|, v) ∧ InhomoValue s 0 .standard nd w ∧
      v + w = taylorPoly 4 (fun t => U 0 0 (move (polarPoint (s.e.evalR th) th) (evalNormal s.e.evalR th).1
        (evalNormal s.e.evalR th).2 t)) n := by
  have hph : th ∈ physical s.e.a s.e.R 0 := by unfold physical; rw [if_pos rfl]; exact ⟨h1, h2⟩
  have key := C27_C28_outer hr hp hU hF hpde hJ hth hin k0 k1 e0 e1 hP hPin eP n (x := xiTab s src th 0)
    (fun i hi => by rw [xiTab_eq s src he ha hR hph (by omega), t0 i hi])
    (fun i hi => by rw [xiTab_eq s src he ha hR hph (by omega), t1 i hi])
  refine ⟨_, _, doExtend0Standard_ok s hv hc, ?_, key⟩
  rcases hsrc with ⟨hh, z1, z2⟩ | ⟨hh, hn, hs⟩
  · refine ⟨0, ?_⟩
    unfold doInhomo
    rw [hh]
    simp only [if_true, dir1, dir2, z1, z2, mul_zero, add_zero, pure_eq_ok]
    unfold inhomoExtendPolar
    simp only [inhomoD2Fs, zero_mul, add_zero]
    rw [inhomoExtendArbitrary_zero]
  · refine ⟨|n|, ?_⟩
    unfold doInhomo
    rw [hh]
    exact doInhomo0Standard_ok s hc (hr.differentiable (by norm_num) th) (hp th) hs hnd hn

/-- outer boundary of the example solver: node `(-3, 0)`, foot point `(-2, 0)` -/
example : ∃ v w, doExtend (exSolver oneSource) (.basis 0 0) 0 .standard (1, 4) = .ok (|(1 : ℝ)|, v) ∧
    InhomoValue (exSolver oneSource) 0 .standard (1, 4) w ∧
    v + w = taylorPoly 4 (fun t => oneJet 0 0 (move (polarPoint ((exSolver oneSource).e.evalR π) π)
      (evalNormal (exSolver oneSource).e.evalR π).1 (evalNormal (exSolver oneSource).e.evalR π).2 t)) 1 := by
  have eN : evalNormal (exSolver oneSource).e.evalR π = (cos π, sin π) := arc_normal (R := 2) (by norm_num) π
  have fam : ∀ (c : ℂ) n, DerivFam n Set.univ (fun m (_ : ℝ) => if m = 0 then c else 0) := fun c n i _ s _ =>
    (hasDerivAt_const s _).congr_deriv (by simp)
  have htr : ∀ (i : Fin 2) (c : ℂ), (∀ t, trace (exSolver oneSource) (.basis 0 0) 0 i t = c) → ∀ m,
      iteratedDeriv m (trace (exSolver oneSource) (.basis 0 0) 0 i) π = if m = 0 then c else 0 := by
    intro i c h m
    rw [show trace (exSolver oneSource) (.basis 0 0) 0 i = fun _ => c from funext h]
    exact DerivFam.iterated isOpen_univ (fam c m) m le_rfl π (Set.mem_univ _)
  refine C28_outer_node (exSolver oneSource) (Ω := Set.univ) (Ω' := Set.univ) (P := oneJet) (J := Set.univ)
    (X0 := fun m _ => if m = 0 then 1 else 0) (X1 := fun m _ => if m = 0 then 0 else 0)
    (by show 0 < _; rw [exSolver_bDesc]; simp) (by norm_num [exSolver]) (by simp only [exSolver]; linarith [pi_pos])
    (by norm_num [exSolver]) contDiff_const (fun _ => by norm_num [exSolver]) (oneJet_jetOn _ isOpen_univ 4)
    (oneJet_jetOn _ isOpen_univ 2) (one_helmholtz _) rfl (by simp only [exSolver]; linarith [pi_pos])
    (by linarith [pi_pos]) ?_ isOpen_univ (Set.mem_univ _) (fun _ _ => Set.mem_univ _) (fam 1 4) (fam 0 2)
    (fun _ _ => by simp [oneJet]) (fun _ _ => by simp [oneJet, dir1])
    (fun m _ => htr 0 1 (fun t => (ex_trace oneSource 0 t).1) m)
    (fun m _ => htr 1 0 (fun t => (ex_trace oneSource 0 t).2) m)
    (oneJet_jetOn _ isOpen_univ 2) (fun _ _ => Set.mem_univ _) (fun _ _ => by simp [oneJet])
    (.inr ⟨rfl, one_ne_zero, ?_⟩)
  · rw [exSolver_coord, eN]
    simp only [exSolver, move, polarPoint]
    norm_num
  · constructor <;> simp [exSolver, oneSource, oneJet]

end Pot
