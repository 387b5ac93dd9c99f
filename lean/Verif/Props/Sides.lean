import Verif.Props.Taylor
import Verif.Props.Corner
import Verif.Model.Inhomo
import Verif.Props.Source

/-! # Property C31: the extension from the straight sides; accuracy of the extension at standard nodes -/

namespace Pot
open Spec Finset Real

/-- a straight line as a curve with constant frame -/
theorem line_frame {I : Set ℝ} (hI : IsOpen I) (p : ℝ × ℝ) {a b c d : ℝ} (hT : a ^ 2 + b ^ 2 = 1)
    (hN : c ^ 2 + d ^ 2 = 1) (ho : a * c + b * d = 0) :
    Frame I (fun s => p.1 + s * a) (fun s => p.2 + s * b) (fun _ => a) (fun _ => b) (fun _ => c) (fun _ => d)
      (fun _ => 0) where
  isOpen := hI
  dx s _ := by simpa using ((hasDerivAt_id s).mul_const a).const_add p.1
  dy s _ := by simpa using ((hasDerivAt_id s).mul_const b).const_add p.2
  dt1 s _ := by simpa using hasDerivAt_const s a
  dt2 s _ := by simpa using hasDerivAt_const s b
  dn1 s _ := by simpa using hasDerivAt_const s c
  dn2 s _ := by simpa using hasDerivAt_const s d
  unitT _ _ := hT
  unitN _ _ := hN
  orth _ _ := ho

/-- **C31** on a straight line through `p` with unit tangent `(a, b)` and unit normal `(c, d)`: for every solution `U` with
source `F`, the homogeneous extension fed with the tangential derivatives of its Cauchy data plus the inhomogeneous
extension is the degree-4 Taylor polynomial of the solution along the normal. -/
theorem C31_line {Ω : Set (ℝ × ℝ)} {U F : ℕ → ℕ → ℝ × ℝ → ℂ} {k : ℝ} (hU : JetOn Ω 4 U) (hF : JetOn Ω 2 F)
    (hpde : Helmholtz Ω k U (F 0 0)) {p : ℝ × ℝ} (hp : p ∈ Ω) {a b c d : ℝ} (hT : a ^ 2 + b ^ 2 = 1)
    (hN : c ^ 2 + d ^ 2 = 1) (ho : a * c + b * d = 0) {x : Tab}
    (hx0 : ∀ m ≤ 4, x (m, 0) = iteratedDeriv m (fun t => U 0 0 (move p a b t)) 0)
    (hx1 : ∀ m ≤ 2, x (m, 1) = iteratedDeriv m (fun t => dir1 U c d (move p a b t)) 0) (n : ℝ) :
    extendArbitrary k (radiusArgs n x) +
      inhomoExtendArbitrary k
        { n := n, f := F 0 0 p, dFn := dir1 F c d p, d2Fn := dir2 F c d p, d2Fs := dir2 F a b p, curv := 0 } =
      taylorPoly 4 (fun t => U 0 0 (move p c d t)) n := by
  have hI := move_open hU.isOpen p a b
  have h0 : (0 : ℝ) ∈ {t | move p a b t ∈ Ω} := by simpa using hp
  have f0 := lineFam_deriv hU p a b
  have f1 := lineFam_deriv (JetOn.mono (JetOn.dirJet (n := 3) hU c d) (show 2 ≤ 3 by norm_num)) p a b
  have ff := lineFam_deriv hF p a b
  have key := C27_C28_sum (κ := fun _ _ => 0) hU hF hpde (line_frame hI p hT hN ho)
    (fun _ _ s _ => hasDerivAt_const s 0) (fun s hs => hs) f0 f1 ff (fun _ _ => rfl) (fun _ _ => rfl) (fun _ _ => rfl) h0 n
  have e0 : ∀ m ≤ 4, lineFam U p a b m 0 = x (m, 0) := fun m hm =>
    ((hx0 m hm).trans (DerivFam.iterated hI f0 m hm 0 h0)).symm
  have e1 : ∀ m ≤ 2, lineFam (dirJet c d U) p a b m 0 = x (m, 1) := fun m hm =>
    ((hx1 m hm).trans (DerivFam.iterated hI f1 m hm 0 h0)).symm
  have e2 : lineFam F p a b 2 0 = dir2 F a b p := by
    simp only [lineFam, move_zero, Function.iterate_succ, Function.iterate_zero, Function.comp, id, dirJet, dir2]
    ring
  simp only [zero_mul, add_zero] at key
  rw [e0 0 (by norm_num), e0 1 (by norm_num), e0 2 (by norm_num), e0 4 (by norm_num), e1 0 (by norm_num),
    e1 1 (by norm_num), e1 2 (by norm_num), e2] at key
  exact key

/-! ## The two sides in the solver -/

/-- the code's source methods at a point agree with the source `F` of the equation -/
structure SrcAt (src : Source) (F : ℕ → ℕ → ℝ × ℝ → ℂ) (p : ℝ × ℝ) : Prop where
  f : src.f p.1 p.2 = F 0 0 p
  grad : src.grad p.1 p.2 = .ok (F 1 0 p, F 0 1 p)
  hess : src.hess p.1 p.2 = .ok ((F 2 0 p, F 1 1 p), (F 1 1 p, F 0 2 p))

theorem inhomoExtend_n_zero (k : ℝ) (x : InhomoArgs) (h : x.n = 0) : inhomoExtendArbitrary k x = 0 := by
  unfold inhomoExtendArbitrary
  simp only [inhomoDerivs]
  rw [taylorSum5, h]; simp

/-- moving along a unit normal and renormalising recovers the normal up to the sign of the distance -/
theorem normalize_normal {c d n : ℝ} (hN : c ^ 2 + d ^ 2 = 1) (hn : n ≠ 0) :
    norm2 (n * c, n * d) = |n| ∧ normalizeIf (n * c, n * d) = (npSign n * c, npSign n * d) ∧
      normalize (n * c, n * d) = .ok (npSign n * c, npSign n * d) ∧ npSign n ^ 2 = 1 := by
  have e : norm2 (n * c, n * d) = |n| := by
    unfold norm2
    rw [show (n * c) ^ 2 + (n * d) ^ 2 = n ^ 2 by linear_combination n ^ 2 * hN, sqrt_sq_eq_abs]
  have hs : n / |n| = npSign n := by
    unfold npSign
    rcases lt_or_gt_of_ne hn with h | h
    · rw [if_pos h, abs_of_neg h, div_neg, div_self hn]
    · rw [if_neg (by linarith), if_pos h, abs_of_pos h, div_self hn]
  have h0 : |n| ≠ 0 := abs_ne_zero.2 hn
  have e1 : ∀ c : ℝ, n * c / |n| = npSign n * c := fun c => by rw [← hs]; ring
  refine ⟨e, ?_, ?_, ?_⟩
  · unfold normalizeIf; rw [e, if_pos h0]; simp only [e1]
  · unfold normalize; rw [e, if_neg h0, pure_eq_ok]; simp only [e1]
  · unfold npSign
    rcases lt_or_gt_of_ne hn with h | h
    · rw [if_pos h]; norm_num
    · rw [if_neg (by linarith), if_pos h]; norm_num

/-- the same at the origin, where the code evaluates the source's derivatives at `(-h, 0)`, `h = AD_len / (10 N)`, and
extrapolates the gradient: its result is the gradient and Hessian of `F` at the origin, as is the case for every
quadratic source -/
structure SrcAt0 (s : PSolver) (F : ℕ → ℕ → ℝ × ℝ → ℂ) : Prop where
  f : s.src.f 0 0 = F 0 0 (0, 0)
  ex : ∃ g : ℂ × ℂ, s.src.grad (-(s.e.AD / (10 * s.e.N))) 0 = .ok g ∧
    g.1 + (s.e.AD / (10 * s.e.N) : ℝ) * F 2 0 (0, 0) = F 1 0 (0, 0) ∧
    g.2 + (s.e.AD / (10 * s.e.N) : ℝ) * F 1 1 (0, 0) = F 0 1 (0, 0)
  hess : s.src.hess (-(s.e.AD / (10 * s.e.N))) 0 =
    .ok ((F 2 0 (0, 0), F 1 1 (0, 0)), (F 1 1 (0, 0), F 0 2 (0, 0)))

/-- the inhomogeneous extension from a side -/
theorem calcInhomoRadius_ok (s : PSolver) {F : ℕ → ℕ → ℝ × ℝ → ℂ} {p : ℝ × ℝ}
    (hs : p ≠ (0, 0) ∧ SrcAt s.src F p ∨ p = (0, 0) ∧ SrcAt0 s F)
    {c d : ℝ} (hN : c ^ 2 + d ^ 2 = 1) (t : ℝ × ℝ) (n : ℝ) :
    ∃ elen, calcInhomoRadius s p.1 p.2 (p.1 + n * c) (p.2 + n * d) t n = .ok (elen,
      inhomoExtendArbitrary s.k
        { n := n, f := F 0 0 p, dFn := dir1 F c d p, d2Fn := dir2 F c d p, d2Fs := dir2 F t.1 t.2 p, curv := 0 }) := by
  have key : ∀ (elen : ℝ) (f : ℂ), f = F 0 0 p → inhomoExtendArbitrary s.k
      { n := n, f := f, dFn := dot2 (F 1 0 p, F 0 1 p) (normalizeIf (n * c, n * d)) * npSign n,
        d2Fn := dot2 (hdot ((F 2 0 p, F 1 1 p), (F 1 1 p, F 0 2 p)) (normalizeIf (n * c, n * d)))
          (normalizeIf (n * c, n * d)),
        d2Fs := dot2 (hdot ((F 2 0 p, F 1 1 p), (F 1 1 p, F 0 2 p)) t) t, curv := 0 } =
      inhomoExtendArbitrary s.k
        { n := n, f := F 0 0 p, dFn := dir1 F c d p, d2Fn := dir2 F c d p, d2Fs := dir2 F t.1 t.2 p, curv := 0 } := by
    intro elen f hf
    rcases eq_or_ne n 0 with rfl | hn
    · rw [inhomoExtend_n_zero _ _ rfl, inhomoExtend_n_zero _ _ rfl]
    · obtain ⟨-, e, -, h1⟩ := normalize_normal hN hn
      have h1' : ((npSign n : ℝ) : ℂ) ^ 2 = 1 := by exact_mod_cast h1
      rw [e, hf]
      congr 2
      · simp only [dot2, dir1]; push_cast
        linear_combination ((c : ℂ) * F 1 0 p + d * F 0 1 p) * h1'
      · simp only [dot2, hdot, dir2]; push_cast
        linear_combination ((c : ℂ) ^ 2 * F 2 0 p + 2 * c * d * F 1 1 p + (d : ℂ) ^ 2 * F 0 2 p) * h1'
      · simp only [dot2, hdot, dir2]; ring
  rcases hs with ⟨hp, hs⟩ | ⟨hp, hs⟩
  · have h0 : ¬(p.1 = 0 ∧ p.2 = 0) := fun h => hp (Prod.ext h.1 h.2)
    unfold calcInhomoRadius
    rw [if_neg h0, hs.grad, ok_bind, hs.hess, ok_bind, pure_eq_ok, ok_bind]
    simp only [add_sub_cancel_left, pure_eq_ok]
    exact ⟨_, congrArg Except.ok (congrArg (Prod.mk _) (key 0 _ hs.f))⟩
  · subst hp
    obtain ⟨g, e1, e2, e3⟩ := hs.ex
    unfold calcInhomoRadius
    rw [if_pos ⟨rfl, rfl⟩]
    dsimp only
    rw [hs.hess, ok_bind, e1, ok_bind, pure_eq_ok, ok_bind]
    simp only [add_sub_cancel_left, pure_eq_ok]
    have e4 : ((g.1 + ((s.e.AD / (10 * s.e.N) : ℝ) : ℂ) * (hdot ((F 2 0 (0, 0), F 1 1 (0, 0)), (F 1 1 (0, 0), F 0 2 (0, 0))) (1, 0)).1,
        g.2 + ((s.e.AD / (10 * s.e.N) : ℝ) : ℂ) * (hdot ((F 2 0 (0, 0), F 1 1 (0, 0)), (F 1 1 (0, 0), F 0 2 (0, 0))) (1, 0)).2) : ℂ × ℂ) =
        (F 1 0 (0, 0), F 0 1 (0, 0)) := by
      simp only [hdot, dot2, Complex.ofReal_one, mul_one, Complex.ofReal_zero, mul_zero, add_zero]
      rw [e2, e3]
    rw [e4]
    exact ⟨_, congrArg Except.ok (congrArg (Prod.mk _) (key 0 _ hs.f))⟩

variable (s : PSolver) {src : XiSrc} {nd : Node}

/-- the part of the extension coming from the source -/
def InhomoValue (s : PSolver) (sid : Fin 3) (et : EType) (nd : Node) (w : ℂ) : Prop :=
  ∃ elen, doInhomo s sid et nd = .ok (elen, w)

/-- the problem's source at a foot point `p`: either the problem is homogeneous and `F` vanishes, or the source methods
return `F` and its derivatives -/
def SourceAt (s : PSolver) (F : ℕ → ℕ → ℝ × ℝ → ℂ) (p : ℝ × ℝ) : Prop :=
  s.src.homogeneous = true ∧ (∀ i j q, F i j q = 0) ∨
    s.src.homogeneous = false ∧ (p ≠ (0, 0) ∧ SrcAt s.src F p ∨ p = (0, 0) ∧ SrcAt0 s F)

theorem inhomo_side {sid : Fin 3} {et : EType} {F : ℕ → ℕ → ℝ × ℝ → ℂ} {p : ℝ × ℝ} (hs : SourceAt s F p) {a b c d : ℝ}
    (hN : c ^ 2 + d ^ 2 = 1) (t : ℝ × ℝ) (ht : dir2 F t.1 t.2 p = dir2 F a b p) (n : ℝ)
    (h : s.src.homogeneous = false →
      doInhomo s sid et nd = calcInhomoRadius s p.1 p.2 (p.1 + n * c) (p.2 + n * d) t n) :
    InhomoValue s sid et nd (inhomoExtendArbitrary s.k
      { n := n, f := F 0 0 p, dFn := dir1 F c d p, d2Fn := dir2 F c d p, d2Fs := dir2 F a b p, curv := 0 }) := by
  rcases hs with ⟨h1, h2⟩ | ⟨h1, h2⟩
  · refine ⟨0, ?_⟩
    unfold doInhomo
    rw [h1]
    simp only [if_true, dir1, dir2, h2, mul_zero, add_zero]
    rw [inhomoExtendArbitrary_zero, pure_eq_ok]
  · obtain ⟨elen, e⟩ := calcInhomoRadius_ok s h2 hN t n
    refine ⟨elen, ?_⟩
    rw [h h1, e, ht]

theorem iteratedDeriv_shift (g : ℝ → ℂ) (m : ℕ) (x : ℝ) :
    iteratedDeriv m g x = iteratedDeriv m (fun t => g (x + t)) 0 := by
  rw [congrFun (iteratedDeriv_comp_const_add m g x) 0, add_zero]

/-- **C31** lower side: at every node whose foot point `(x, 0)` lies on the side, the standard extension of the
Cauchy data of a solution plus the extension of its source is the degree-4 Taylor polynomial, in `y`, of the solution. -/
theorem C31_lower (hv : src.Valid s.bas.bDesc) (he : 0 < s.eps) (ha : s.e.a < 2 * π) (hR : 0 < s.e.R)
    {Ω : Set (ℝ × ℝ)} {U F : ℕ → ℕ → ℝ × ℝ → ℂ} (hU : JetOn Ω 4 U) (hF : JetOn Ω 2 F)
    (hpde : Helmholtz Ω s.k U (F 0 0)) {x y : ℝ} (hnd : s.e.coord nd = (x, y)) (hx : 0 ≤ x) (hxR : x ≤ s.e.R)
    (hp : (x, 0) ∈ Ω) (hsrc : SourceAt s F (x, 0))
    (h0 : ∀ m ≤ 4, iteratedDeriv m (trace s src 1 0) x = iteratedDeriv m (fun t => U 0 0 (t, 0)) x)
    (h1 : ∀ m ≤ 2, iteratedDeriv m (trace s src 1 1) x = iteratedDeriv m (fun t => U 0 1 (t, 0)) x) :
    ∃ v w, doExtend s src 1 .standard nd = .ok (|y|, v) ∧ InhomoValue s 1 .standard nd w ∧
      v + w = taylorPoly 4 (fun t => U 0 0 (x, t)) y := by
  have hph : x ∈ physical s.e.a s.e.R 1 := by unfold physical; rw [if_neg (by decide)]; exact ⟨hx, hxR⟩
  have key := C31_line hU hF hpde hp (a := 1) (b := 0) (c := 0) (d := 1) (x := xiTab s src x 1) (by norm_num)
    (by norm_num) (by norm_num)
    (fun m hm => by
      rw [xiTab_eq s src he ha hR hph (by omega), h0 m hm, iteratedDeriv_shift]; simp [move])
    (fun m hm => by
      rw [xiTab_eq s src he ha hR hph (by omega), h1 m hm, iteratedDeriv_shift]; simp [move, dir1]) y
  have e := doExtend1Standard_ok (nd := nd) s hv
  rw [hnd] at e
  have ei := inhomo_side (nd := nd) (sid := 1) (et := .standard) s hsrc (a := 1) (b := 0) (c := 0) (d := 1)
    (by norm_num) (-1, 0) (by simp [dir2]) y (fun hh => by
      unfold doInhomo
      rw [hh]
      simp only [Bool.false_eq_true, if_false]
      unfold extendInhomoRadius
      rw [if_pos rfl, hnd]
      simp)
  refine ⟨_, _, e, ei, ?_⟩
  rw [key]
  simp [move]

/-- **C31** upper side: at every node whose foot point lies on the side, at distance `ρ` from the origin, the same with
the outward normal `(sin a, -cos a)` and the signed distance `n`. -/
theorem C31_upper (hv : src.Valid s.bas.bDesc) (he : 0 < s.eps) (h0a : 0 < s.e.a) (hπ : s.e.a < π) (hR : 0 < s.e.R)
    {Ω : Set (ℝ × ℝ)} {U F : ℕ → ℕ → ℝ × ℝ → ℂ} (hU : JetOn Ω 4 U) (hF : JetOn Ω 2 F)
    (hpde : Helmholtz Ω s.k U (F 0 0)) {ρ n : ℝ}
    (hnd : s.e.coord nd = (ρ * cos s.e.a + n * sin s.e.a, ρ * sin s.e.a - n * cos s.e.a)) (hx : 0 ≤ ρ) (hxR : ρ ≤ s.e.R)
    (hp : polarPoint ρ s.e.a ∈ Ω) (hsrc : SourceAt s F (polarPoint ρ s.e.a))
    (h0 : ∀ m ≤ 4, iteratedDeriv m (trace s src 2 0) ρ = iteratedDeriv m (fun t => U 0 0 (polarPoint t s.e.a)) ρ)
    (h1 : ∀ m ≤ 2, iteratedDeriv m (trace s src 2 1) ρ =
      iteratedDeriv m (fun t => dir1 U (sin s.e.a) (-cos s.e.a) (polarPoint t s.e.a)) ρ) :
    ∃ v w, doExtend s src 2 .standard nd = .ok (|n|, v) ∧ InhomoValue s 2 .standard nd w ∧
      v + w = taylorPoly 4 (fun t => U 0 0 (move (polarPoint ρ s.e.a) (sin s.e.a) (-cos s.e.a) t)) n := by
  have hsc := sin_sq_add_cos_sq s.e.a
  have ha : s.e.a < 2 * π := by linarith [pi_pos]
  have hph : ρ ∈ physical s.e.a s.e.R 2 := by unfold physical; rw [if_neg (by decide)]; exact ⟨hx, hxR⟩
  have hmv : ∀ t, move (polarPoint ρ s.e.a) (cos s.e.a) (sin s.e.a) t = polarPoint (ρ + t) s.e.a := fun t => by
    simp only [move, polarPoint]; ext <;> simp <;> ring
  have key := C31_line hU hF hpde hp (a := cos s.e.a) (b := sin s.e.a) (c := sin s.e.a) (d := -cos s.e.a)
    (x := xiTab s src ρ 2) (by linarith) (by linarith) (by ring)
    (fun m hm => by
      rw [xiTab_eq s src he ha hR hph (by omega), h0 m hm, iteratedDeriv_shift]; simp only [hmv])
    (fun m hm => by
      rw [xiTab_eq s src he ha hR hph (by omega), h1 m hm, iteratedDeriv_shift]; simp only [hmv]) n
  have hal : along2 s nd = ρ := by
    unfold along2; rw [hnd]; simp only; linear_combination ρ * hsc
  have hft : foot2 s nd = polarPoint ρ s.e.a := by
    rw [foot2_along s h0a hπ, hal]; rfl
  have hsd : sdist2 s nd = n := by
    have := (C08_radius_point s.e.a (s.e.coord nd).1 (s.e.coord nd).2 h0a hπ).2.2.2.2.1
    unfold sdist2; rw [this, hnd]; simp only; linear_combination n * hsc
  have hr : (cartToPolar (foot2 s nd).1 (foot2 s nd).2).1 = ρ := by
    rw [cartToPolar_radius, hft]
    simp only [polarPoint]
    rw [show (ρ * cos s.e.a) ^ 2 + (ρ * sin s.e.a) ^ 2 = ρ ^ 2 by linear_combination ρ ^ 2 * hsc, sqrt_sq hx]
  have e := doExtend2Standard_ok (nd := nd) s hv
  rw [hr, hsd] at e
  have ei := inhomo_side (nd := nd) (sid := 2) (et := .standard) s hsrc (a := cos s.e.a) (b := sin s.e.a)
    (c := sin s.e.a) (d := -cos s.e.a) (by linarith) (cos s.e.a, sin s.e.a) rfl n (fun hh => by
      unfold doInhomo
      rw [hh]
      simp only [Bool.false_eq_true, if_false]
      unfold extendInhomoRadius
      rw [if_neg (by decide), grp_ok, ok_bind, sdr_ok, ok_bind]
      change calcInhomoRadius s (foot2 s nd).1 (foot2 s nd).2 (s.e.coord nd).1 (s.e.coord nd).2 _ (sdist2 s nd) = _
      rw [hft, hsd, hnd]
      simp only [polarPoint]
      congr 1
      ring)
  exact ⟨_, _, e, ei, key⟩

/-- every node has such foot point coordinates -/
theorem C31_upper_coords :
    s.e.coord nd = (along2 s nd * cos s.e.a + ((s.e.coord nd).1 * sin s.e.a - (s.e.coord nd).2 * cos s.e.a) * sin s.e.a,
      along2 s nd * sin s.e.a - ((s.e.coord nd).1 * sin s.e.a - (s.e.coord nd).2 * cos s.e.a) * cos s.e.a) := by
  have hsc := sin_sq_add_cos_sq s.e.a
  unfold along2
  ext
  · simp only; linear_combination -(s.e.coord nd).1 * hsc
  · simp only; linear_combination -(s.e.coord nd).2 * hsc

/-! ## Concrete cases: `u = 1` solves `Δu + u = 1` -/

theorem ex_trace (src : Source) (sid : Fin 3) (t : ℝ) :
    trace (exSolver src) (.basis sid.1 0) sid 0 t = 1 ∧ trace (exSolver src) (.basis sid.1 0) sid 1 t = 0 := by
  unfold trace
  rw [exSolver_bDesc]
  fin_cases sid <;> simp [sum_range_succ, XiSrc.val, basisFn]

theorem oneSource_at (p : ℝ × ℝ) : SrcAt oneSource oneJet p := by
  constructor <;> simp [oneSource, oneJet]

theorem exSolver_sourceAt {p : ℝ × ℝ} (hp : p ≠ (0, 0)) : SourceAt (exSolver oneSource) oneJet p :=
  .inr ⟨rfl, .inl ⟨hp, oneSource_at p⟩⟩

theorem exSolver_sourceAt0 : SourceAt (exSolver oneSource) oneJet (0, 0) :=
  .inr ⟨rfl, .inr ⟨rfl, ⟨by simp [exSolver, oneSource, oneJet], ⟨(0, 0), rfl, by simp [oneJet], by simp [oneJet]⟩,
    by simp [exSolver, oneSource, oneJet]⟩⟩⟩

theorem ex_side {src : Source} {sid : Fin 3} {g : ℝ → ℂ} {x : ℝ} {i : Fin 2} {c : ℂ}
    (h : ∀ t, trace (exSolver src) (.basis sid.1 0) sid i t = c) (hg : ∀ t, g t = c) (m : ℕ) :
    iteratedDeriv m (trace (exSolver src) (.basis sid.1 0) sid i) x = iteratedDeriv m g x := by
  rw [show trace (exSolver src) (.basis sid.1 0) sid i = g from funext fun t => (h t).trans (hg t).symm]

/-- C31, lower side, node `(1, -1)` -/
example : ∃ v w, doExtend (exSolver oneSource) (.basis 1 0) 1 .standard (5, 3) = .ok (|(-1 : ℝ)|, v) ∧
    InhomoValue (exSolver oneSource) 1 .standard (5, 3) w ∧
    v + w = taylorPoly 4 (fun t => oneJet 0 0 (1, t)) (-1) :=
  C31_lower (exSolver oneSource) (Ω := Set.univ) (by show 1 < _; rw [exSolver_bDesc]; simp) (by norm_num [exSolver])
    (by simp only [exSolver]; linarith [pi_pos]) (by norm_num [exSolver]) (oneJet_jetOn _ isOpen_univ 4)
    (oneJet_jetOn _ isOpen_univ 2) (one_helmholtz _) (by rw [exSolver_coord]; norm_num) (by norm_num)
    (by norm_num [exSolver]) (Set.mem_univ _) (exSolver_sourceAt (by simp))
    (fun m _ => ex_side (sid := 1) (fun t => (ex_trace _ 1 t).1) (fun t => by simp [oneJet]) m)
    (fun m _ => ex_side (sid := 1) (fun t => (ex_trace _ 1 t).2) (fun t => by simp [oneJet]) m)

/-- C31, lower side, foot point at the origin, node `(0, -1)` -/
example : ∃ v w, doExtend (exSolver oneSource) (.basis 1 0) 1 .standard (4, 3) = .ok (|(-1 : ℝ)|, v) ∧
    InhomoValue (exSolver oneSource) 1 .standard (4, 3) w ∧
    v + w = taylorPoly 4 (fun t => oneJet 0 0 (0, t)) (-1) :=
  C31_lower (exSolver oneSource) (Ω := Set.univ) (by show 1 < _; rw [exSolver_bDesc]; simp) (by norm_num [exSolver])
    (by simp only [exSolver]; linarith [pi_pos]) (by norm_num [exSolver]) (oneJet_jetOn _ isOpen_univ 4)
    (oneJet_jetOn _ isOpen_univ 2) (one_helmholtz _) (by rw [exSolver_coord]; norm_num) (by norm_num)
    (by norm_num [exSolver]) (Set.mem_univ _) exSolver_sourceAt0
    (fun m _ => ex_side (sid := 1) (fun t => (ex_trace _ 1 t).1) (fun t => by simp [oneJet]) m)
    (fun m _ => ex_side (sid := 1) (fun t => (ex_trace _ 1 t).2) (fun t => by simp [oneJet]) m)

/-- C31, upper side (the positive `y` axis), node `(-1, 1)` at signed distance `-1` -/
example : ∃ v w, doExtend (exSolver oneSource) (.basis 2 0) 2 .standard (3, 5) = .ok (|(-1 : ℝ)|, v) ∧
    InhomoValue (exSolver oneSource) 2 .standard (3, 5) w ∧
    v + w = taylorPoly 4 (fun t => oneJet 0 0 (move (polarPoint 1 (exSolver oneSource).e.a)
      (sin (exSolver oneSource).e.a) (-cos (exSolver oneSource).e.a) t)) (-1) :=
  C31_upper (exSolver oneSource) (Ω := Set.univ) (by show 2 < _; rw [exSolver_bDesc]; simp) (by norm_num [exSolver])
    (by simp only [exSolver]; linarith [pi_pos]) (by simp only [exSolver]; linarith [pi_pos]) (by norm_num [exSolver])
    (oneJet_jetOn _ isOpen_univ 4) (oneJet_jetOn _ isOpen_univ 2) (one_helmholtz _) (ρ := 1) (n := -1)
    (by rw [exSolver_coord]; simp [exSolver]; norm_num) (by norm_num) (by norm_num [exSolver]) (Set.mem_univ _)
    (exSolver_sourceAt (by simp [polarPoint, exSolver]))
    (fun m _ => ex_side (sid := 2) (fun t => (ex_trace _ 2 t).1) (fun t => by simp [oneJet]) m)
    (fun m _ => ex_side (sid := 2) (fun t => (ex_trace _ 2 t).2) (fun t => by simp [oneJet, dir1]) m)

end Pot
