import Verif.Proofs.InhomoBound
import Verif.Props.ExtendError
import Verif.Props.InhomoRun

/-! # Error of inhomogeneous problems: C82 -/

namespace Pot
open Spec Finset Real

/-- the problem's source methods belong to the function `φ`: value, gradient and Hessian away from the origin, the polar methods at
positive radius, and at the origin a value that is off by at most `η` -/
structure SrcOf (src : Source) (φ : ℝ × ℝ → ℂ) (η : ℝ) : Prop where
  inhomo : src.homogeneous = false
  cart : ∀ p : ℝ × ℝ, p ≠ (0, 0) → SrcAt src (pdFam φ) p
  origin : ‖src.f 0 0 - φ (0, 0)‖ ≤ η
  polar : ∀ r th, 0 < r → SrcPolarAt src (pdFam φ) (pdFam (inPolar φ)) r th

/-- bounds of the source and of the curve -/
structure SrcBounds (φ : ℝ × ℝ → ℂ) (a : ℝ) (r : ℝ → ℝ) (K L : ℝ) : Prop where
  cart : Third (pdFam φ) (K + 2) L
  polar : Third (pdFam (inPolar φ)) (K + 2 * π + 2) L
  d1 : ∀ th ∈ Set.Icc (a / 2) (2 * π + a / 2), |dRth r th| ≤ K
  d2 : ∀ th ∈ Set.Icc (a / 2) (2 * π + a / 2), |d2Rth r th| ≤ K

theorem SrcOf.nonneg {src : Source} {φ : ℝ × ℝ → ℂ} {η : ℝ} (h : SrcOf src φ η) : 0 ≤ η := (norm_nonneg _).trans h.origin

/-! ## Signs -/

theorem dot2_flip (g : ℂ × ℂ) {σ c d : ℝ} (h : σ ^ 2 = 1) : dot2 g (σ * c, σ * d) * σ = dot2 g (c, d) := by
  have h' : ((σ : ℝ) : ℂ) ^ 2 = 1 := by exact_mod_cast h
  simp only [dot2]
  push_cast
  linear_combination (g.1 * c + g.2 * d) * h'

theorem hdot_flip (H : (ℂ × ℂ) × (ℂ × ℂ)) {σ c d : ℝ} (h : σ ^ 2 = 1) :
    dot2 (hdot H (σ * c, σ * d)) (σ * c, σ * d) = dot2 (hdot H (c, d)) (c, d) := by
  have h' : ((σ : ℝ) : ℂ) ^ 2 = 1 := by exact_mod_cast h
  simp only [dot2, hdot]
  push_cast
  linear_combination ((H.1.1 * c + H.1.2 * d) * c + (H.2.1 * c + H.2.2 * d) * d) * h'

theorem lineSource_neg (k : ℝ) (F : ℕ → ℕ → ℝ × ℝ → ℂ) (p : ℝ × ℝ) (a b c d n : ℝ) :
    lineSource k F p (-a) (-b) c d n = lineSource k F p a b c d n := by
  have : dir2 F (-a) (-b) p = dir2 F a b p := by unfold dir2; push_cast; ring
  unfold lineSource
  rw [this]

theorem lineSource_n_zero (k : ℝ) (F : ℕ → ℕ → ℝ × ℝ → ℂ) (p : ℝ × ℝ) (a b c d : ℝ) : lineSource k F p a b c d 0 = 0 :=
  inhomoExtend_n_zero _ _ rfl

/-! ## From a straight side -/

theorem pow_weight {n d E c : ℝ} {j : ℕ} (hn : |n| ≤ d) (hE : 0 ≤ E) (h : d ^ j * E = c) : |n| ^ j * E ≤ c :=
  h ▸ mul_le_mul_of_nonneg_right (pow_le_pow_left₀ (abs_nonneg _) hn j) hE

/-- the extension of nearly exact source data from a line -/
theorem line_near {F : ℕ → ℕ → ℝ × ℝ → ℂ} {p : ℝ × ℝ} {f : ℂ} {g : ℂ × ℂ} {H : (ℂ × ℂ) × (ℂ × ℂ)} {k K L d η n : ℝ} (hK : 1 ≤ K)
    (hk : |k| ≤ K) (hL : 0 ≤ L) (hη : 0 ≤ η) (hn : |n| ≤ d) (hd : d ≤ 1)
    (h : DataNear F p f g H (16 * L * d ^ 3 + η) (8 * L * d ^ 2) (4 * L * d)) {a b c e : ℝ} (hT : a ^ 2 + b ^ 2 = 1)
    (hN : c ^ 2 + e ^ 2 = 1) :
    ‖inhomoExtendArbitrary k
      { n := n, f := f, dFn := dot2 g (c, e), d2Fn := dot2 (hdot H (c, e)) (c, e),
        d2Fs := dot2 (hdot H (a, b)) (a, b), curv := 0 } - lineSource k F p a b c e n‖ ≤ 2 * K ^ 2 * (16 * L * d ^ 5 + η * d ^ 2) := by
  have hd0 : 0 ≤ d := (abs_nonneg _).trans hn
  have hη2 : 0 ≤ η * d ^ 2 := by positivity
  refine inhomo_near hK hk (hn.trans hd) (by simpa using by linarith) ⟨rfl, rfl, ?_, ?_, ?_, ?_⟩
  · exact (mul_le_mul_of_nonneg_left h.f (by positivity)).trans
      (pow_weight hn (by positivity) (by ring))
  · exact (mul_le_mul_of_nonneg_left (h.dirs hN).1 (by positivity)).trans
      ((pow_weight (c := 16 * L * d ^ 5) hn (by positivity) (by ring)).trans (by linarith))
  · exact (mul_le_mul_of_nonneg_left (h.dirs hN).2 (by positivity)).trans
      ((pow_weight (c := 16 * L * d ^ 5) hn (by positivity) (by ring)).trans (by linarith))
  · exact (mul_le_mul_of_nonneg_left (h.dirs hT).2 (by positivity)).trans
      ((pow_weight (c := 16 * L * d ^ 5) hn (by positivity) (by ring)).trans (by linarith))

theorem Third.nonneg {U : ℕ → ℕ → ℝ × ℝ → ℂ} {ρ L : ℝ} (h : Third U ρ L) (hρ : 0 ≤ ρ) : 0 ≤ L :=
  (norm_nonneg _).trans (h 3 0 rfl (0, 0) (by simpa using hρ) (by simpa using hρ))

theorem jet3 {φ : ℝ × ℝ → ℂ} (h : ContDiff ℝ 3 φ) : JetOn Set.univ 3 (pdFam φ) :=
  jetOn_of_contDiffOn isOpen_univ (n := 3) (by exact_mod_cast h.contDiffOn)

/-- `_calc_inhomo_radius`, including the extrapolation to the origin -/
theorem calcRadius_near (s : PSolver) {φ : ℝ × ℝ → ℂ} (hφ : ContDiff ℝ 3 φ) {η K L d : ℝ} (hs : SrcOf s.src φ η)
    (hL : Third (pdFam φ) (K + 2) L) (hK : 1 ≤ K) (hk : |s.k| ≤ K) (hd : d ≤ 1) (hh0 : 0 < s.e.AD / (10 * s.e.N))
    (hh : s.e.AD / (10 * s.e.N) ≤ d) {p : ℝ × ℝ} {c e n a b : ℝ} (hN : c ^ 2 + e ^ 2 = 1) (hT : a ^ 2 + b ^ 2 = 1) (hn : |n| ≤ d) :
    ∃ v, calcInhomoRadius s p.1 p.2 (p.1 + n * c) (p.2 + n * e) (a, b) n = .ok v ∧
      ‖v.2 - lineSource s.k (pdFam φ) p a b c e n‖ ≤ 2 * K ^ 2 * (16 * L * d ^ 5 + η * d ^ 2) := by
  have hη := hs.nonneg
  have hL0 := hL.nonneg (by linarith)
  have hd0 : 0 ≤ d := (abs_nonneg _).trans hn
  set F := pdFam φ with hF
  -- the data, once computed
  have fin : ∀ (f : ℂ) (g : ℂ × ℂ) (H : (ℂ × ℂ) × (ℂ × ℂ)), DataNear F p f g H (16 * L * d ^ 3 + η) (8 * L * d ^ 2) (4 * L * d) →
      ‖inhomoExtendArbitrary s.k
      { n := n, f := f, dFn := dot2 g (normalizeIf (n * c, n * e)) * npSign n,
        d2Fn := dot2 (hdot H (normalizeIf (n * c, n * e))) (normalizeIf (n * c, n * e)),
        d2Fs := dot2 (hdot H (a, b)) (a, b), curv := 0 } - lineSource s.k F p a b c e n‖ ≤
      2 * K ^ 2 * (16 * L * d ^ 5 + η * d ^ 2) := by
    intro f g H h
    rcases eq_or_ne n 0 with rfl | hn0
    · rw [lineSource_n_zero, inhomoExtend_n_zero _ _ rfl, sub_zero, norm_zero]
      positivity
    · obtain ⟨-, h1, -, h2⟩ := normalize_normal hN hn0
      rw [h1, dot2_flip g h2, hdot_flip H h2]
      exact line_near hK hk hL0 hη hn hd h hT hN
  by_cases hp : p = (0, 0)
  · subst hp
    set h := s.e.AD / (10 * s.e.N) with hhdef
    have hq : ((-h, 0) : ℝ × ℝ) ≠ (0, 0) := fun hc => by
      have := (Prod.ext_iff.1 hc).1
      simp only at this
      linarith
    have hS := hs.cart (-h, 0) hq
    have hT' := DataNear.taylor (jet3 hφ) hL (p := (-h, 0)) (q := (0, 0)) (A := h) (B := 0) (D := d) (by simp)
      (by rw [abs_of_pos hh0]; exact hh) (by simpa using hd0) (by simp only [abs_neg, abs_of_pos hh0]; linarith) (by simp; linarith)
    have hD : DataNear F (0, 0) (s.src.f 0 0) (F 1 0 (-h, 0) + h * (hdot ((F 2 0 (-h, 0), F 1 1 (-h, 0)), (F 1 1 (-h, 0), F 0 2 (-h, 0))) (1, 0)).1,
        F 0 1 (-h, 0) + h * (hdot ((F 2 0 (-h, 0), F 1 1 (-h, 0)), (F 1 1 (-h, 0), F 0 2 (-h, 0))) (1, 0)).2)
        ((F 2 0 (-h, 0), F 1 1 (-h, 0)), (F 1 1 (-h, 0), F 0 2 (-h, 0))) (16 * L * d ^ 3 + η) (8 * L * d ^ 2) (4 * L * d) := by
      have b1 : 0 ≤ L * d := by positivity
      have b2 : 0 ≤ L * d ^ 2 := by positivity
      have b3 : 0 ≤ L * d ^ 3 := by positivity
      refine ⟨?_, ?_, ?_, hT'.h11.trans (by linarith), hT'.h12.trans (by linarith), hT'.h21.trans (by linarith),
        hT'.h22.trans (by linarith)⟩
      · exact hs.origin.trans (by linarith)
      · have := hT'.g1
        simp only [Complex.ofReal_zero, zero_mul, add_zero] at this
        simp only [hdot, dot2, Complex.ofReal_one, mul_one, Complex.ofReal_zero, mul_zero, add_zero]
        exact this.trans (by linarith)
      · have := hT'.g2
        simp only [Complex.ofReal_zero, zero_mul, add_zero] at this
        simp only [hdot, dot2, Complex.ofReal_one, mul_one, Complex.ofReal_zero, mul_zero, add_zero]
        exact this.trans (by linarith)
    unfold calcInhomoRadius
    rw [if_pos ⟨rfl, rfl⟩]
    dsimp only
    rw [← hhdef, hS.hess, ok_bind, hS.grad, ok_bind, pure_eq_ok, ok_bind]
    simp only [add_sub_cancel_left, pure_eq_ok]
    exact ⟨_, rfl, fin _ _ _ hD⟩
  · have hS := hs.cart p hp
    have h0 : ¬(p.1 = 0 ∧ p.2 = 0) := fun h => hp (Prod.ext h.1 h.2)
    unfold calcInhomoRadius
    rw [if_neg h0, hS.grad, ok_bind, hS.hess, ok_bind, pure_eq_ok, ok_bind]
    simp only [add_sub_cancel_left, pure_eq_ok]
    refine ⟨_, rfl, fin _ _ _ ?_⟩
    rw [hS.f]
    exact DataNear.exact (by positivity) (by positivity) (by positivity)

/-! ## From a corner -/

theorem normalize_spec {v : ℝ × ℝ} (h : v ≠ (0, 0)) : ∃ w, normalize v = .ok w ∧ norm2 v * w.1 = v.1 ∧ norm2 v * w.2 = v.2 ∧
    w.1 ^ 2 + w.2 ^ 2 = 1 := by
  have hn := norm2_ne_zero h
  have h2 : norm2 v ^ 2 = v.1 ^ 2 + v.2 ^ 2 := Real.sq_sqrt (by positivity)
  refine ⟨(v.1 / norm2 v, v.2 / norm2 v), ?_, by field_simp, by field_simp, ?_⟩
  · unfold normalize
    rw [if_neg hn, pure_eq_ok]
  · simp only [div_pow]
    rw [← add_div, ← h2, div_self (by positivity)]

theorem fTaylor_three (x y z : ℂ) (δ : ℝ) : fTaylor [x, y, z] δ = x + y * δ + z * (δ : ℂ) ^ 2 / 2 := by
  simp [fTaylor, List.zipIdx, Nat.factorial]

/-- the data the code extrapolates from a corner `p` along the unit vector `w` over the distance `m` -/
theorem corner_data {φ : ℝ × ℝ → ℂ} (hφ : ContDiff ℝ 3 φ) {K L d η : ℝ} (hη : 0 ≤ η) (hL : Third (pdFam φ) (K + 2) L) (hd : d ≤ 1)
    {p q w : ℝ × ℝ} {m : ℝ} (hw : w.1 ^ 2 + w.2 ^ 2 = 1) (hm0 : 0 ≤ m) (hm : m ≤ 2 * d) (hq : q = (p.1 + m * w.1, p.2 + m * w.2))
    (h1 : |p.1| ≤ K) (h2 : |p.2| ≤ K) :
    let F := pdFam φ
    let H := ((F 2 0 p, F 1 1 p), (F 1 1 p, F 0 2 p))
    DataNear F q (fTaylor [F 0 0 p, dot2 (F 1 0 p, F 0 1 p) w, dot2 (hdot H w) w] m)
      (F 1 0 p + (hdot H w).1 * m, F 0 1 p + (hdot H w).2 * m) H (16 * L * d ^ 3 + η) (8 * L * d ^ 2) (4 * L * d) := by
  intro F H
  obtain ⟨w1, w2⟩ := abs_le_one_of_unit hw
  have hb : ∀ x, |x| ≤ 1 → |m * x| ≤ 2 * d := fun x hx => by
    rw [abs_mul, abs_of_nonneg hm0]
    have := mul_le_mul_of_nonneg_left hx hm0
    linarith
  have key := DataNear.taylor (jet3 hφ) hL (p := p) hq (hb _ w1) (hb _ w2) (by linarith) (by linarith)
  have e1 : fTaylor [F 0 0 p, dot2 (F 1 0 p, F 0 1 p) w, dot2 (hdot H w) w] m =
      F 0 0 p + dir1 F (m * w.1) (m * w.2) p + dir2 F (m * w.1) (m * w.2) p / 2 := by
    rw [fTaylor_three]
    simp only [dot2, hdot, dir1, dir2, H]
    push_cast
    ring
  have e2 : (hdot H w).1 * m = ((m * w.1 : ℝ) : ℂ) * F 2 0 p + ((m * w.2 : ℝ) : ℂ) * F 1 1 p := by
    simp only [dot2, hdot, H]; push_cast; ring
  have e3 : (hdot H w).2 * m = ((m * w.1 : ℝ) : ℂ) * F 1 1 p + ((m * w.2 : ℝ) : ℂ) * F 0 2 p := by
    simp only [dot2, hdot, H]; push_cast; ring
  rw [e1, e2, e3]
  refine ⟨key.f.trans ?_, key.g1.trans (le_of_eq (by ring)), key.g2.trans (le_of_eq (by ring)), key.h11.trans (le_of_eq (by ring)),
    key.h12.trans (le_of_eq (by ring)), key.h21.trans (le_of_eq (by ring)), key.h22.trans (le_of_eq (by ring))⟩
  have : 2 * L * (2 * d) ^ 3 = 16 * L * d ^ 3 := by ring
  linarith


theorem flip_if {n : ℝ} (hn : n ≠ 0) (z : ℂ) : (if n < 0 then z * (-1) else z) = z * npSign n := by
  unfold npSign
  rcases lt_or_gt_of_ne hn with h | h
  · rw [if_pos h, if_pos h]; push_cast; ring
  · rw [if_neg (by linarith), if_neg (by linarith), if_pos h]; push_cast; ring

/-- the extension from a line beyond its corner -/
theorem corner_line {φ : ℝ × ℝ → ℂ} (hφ : ContDiff ℝ 3 φ) {k K L d η : ℝ} (hη : 0 ≤ η) (hL : Third (pdFam φ) (K + 2) L) (hK : 1 ≤ K)
    (hk : |k| ≤ K) (hd : d ≤ 1) {p q w : ℝ × ℝ} {m c e n : ℝ} (hw : w.1 ^ 2 + w.2 ^ 2 = 1) (hN : c ^ 2 + e ^ 2 = 1) (hn : |n| ≤ d)
    (hm0 : 0 ≤ m) (hm : m ≤ 2 * d) (hq : q = (p.1 + m * w.1, p.2 + m * w.2)) (h1 : |p.1| ≤ K) (h2 : |p.2| ≤ K) :
    let F := pdFam φ
    let H := ((F 2 0 p, F 1 1 p), (F 1 1 p, F 0 2 p))
    let v := normalizeIf (n * c, n * e)
    let z := dot2 (F 1 0 p + (hdot H w).1 * m, F 0 1 p + (hdot H w).2 * m) v
    ‖inhomoExtendArbitrary k
      { n := n, f := fTaylor [F 0 0 p, dot2 (F 1 0 p, F 0 1 p) w, dot2 (hdot H w) w] m, dFn := if n < 0 then z * (-1) else z,
        d2Fn := dot2 (hdot H v) v, d2Fs := dot2 (hdot H w) w, curv := 0 } - lineSource k F q w.1 w.2 c e n‖ ≤
      2 * K ^ 2 * (16 * L * d ^ 5 + η * d ^ 2) := by
  intro F H v z
  have hL0 := hL.nonneg (by linarith)
  have hd0 : 0 ≤ d := (abs_nonneg _).trans hn
  rcases eq_or_ne n 0 with rfl | hn0
  · rw [lineSource_n_zero, inhomoExtend_n_zero _ _ rfl, sub_zero, norm_zero]
    positivity
  · obtain ⟨-, e1, -, e2⟩ := normalize_normal hN hn0
    rw [flip_if hn0]
    simp only [z, v]
    rw [e1, dot2_flip _ e2, hdot_flip H e2]
    exact line_near hK hk hL0 hη hn hd (corner_data hφ hη hL hd hw hm0 hm hq h1 h2) hw hN

theorem normalize_pos {m : ℝ} {w : ℝ × ℝ} (hw : w.1 ^ 2 + w.2 ^ 2 = 1) (hm : 0 < m) :
    norm2 (m * w.1, m * w.2) = m ∧ normalize (m * w.1, m * w.2) = .ok w := by
  obtain ⟨e1, -, e2, -⟩ := normalize_normal hw hm.ne'
  rw [abs_of_pos hm] at e1
  refine ⟨e1, e2.trans ?_⟩
  unfold npSign
  rw [if_neg (by linarith), if_pos hm]
  simp

/-! ## The two straight sides -/

section
variable (s : PSolver) {φ : ℝ × ℝ → ℂ} (hφ : ContDiff ℝ 3 φ) {η K L d : ℝ} (hs : SrcOf s.src φ η) (hL : Third (pdFam φ) (K + 2) L)
  (hK : 1 ≤ K) (hk : |s.k| ≤ K) (hd : d ≤ 1) {nd : Node}
include hφ hs hL hK hk hd

theorem inhomoRadius1_near (hh0 : 0 < s.e.AD / (10 * s.e.N)) (hh : s.e.AD / (10 * s.e.N) ≤ d) (hn : |(s.e.coord nd).2| ≤ d) :
    ∃ v, extendInhomoRadius s nd 1 = .ok v ∧ ‖v.2 - sourceTerm s φ 1 nd‖ ≤ 2 * K ^ 2 * (16 * L * d ^ 5 + η * d ^ 2) := by
  obtain ⟨v, h1, h2⟩ := calcRadius_near s hφ hs hL hK hk hd hh0 hh (p := ((s.e.coord nd).1, 0)) (c := 0) (e := 1) (a := -1) (b := 0)
    (n := (s.e.coord nd).2) (by norm_num) (by norm_num) hn
  refine ⟨v, ?_, ?_⟩
  · unfold extendInhomoRadius
    dsimp only at h1 ⊢
    rw [if_pos rfl]
    rw [mul_zero, add_zero, mul_one, zero_add] at h1
    exact h1
  · have := lineSource_neg s.k (pdFam φ) ((s.e.coord nd).1, 0) 1 0 0 1 (s.e.coord nd).2
    rw [neg_zero] at this
    rw [this] at h2
    exact h2

theorem inhomoRadius2_near (ha : 0 < s.e.a) (haπ : s.e.a < π) (hh0 : 0 < s.e.AD / (10 * s.e.N)) (hh : s.e.AD / (10 * s.e.N) ≤ d)
    (hn : |(s.e.coord nd).1 * sin s.e.a - (s.e.coord nd).2 * cos s.e.a| ≤ d) :
    ∃ v, extendInhomoRadius s nd 2 = .ok v ∧ ‖v.2 - sourceTerm s φ 2 nd‖ ≤ 2 * K ^ 2 * (16 * L * d ^ 5 + η * d ^ 2) := by
  have hsc := sin_sq_add_cos_sq s.e.a
  have hf : getRadiusPoint s.e.a (s.e.coord nd).1 (s.e.coord nd).2 = (along2 s nd * cos s.e.a, along2 s nd * sin s.e.a) :=
    foot2_along (nd := nd) s ha haπ
  have hsd := (C08_radius_point s.e.a (s.e.coord nd).1 (s.e.coord nd).2 ha haπ).2.2.2.2.1
  have hco := C31_upper_coords s (nd := nd)
  set y := (s.e.coord nd).1 * sin s.e.a - (s.e.coord nd).2 * cos s.e.a with hy
  obtain ⟨v, h1, h2⟩ := calcRadius_near s hφ hs hL hK hk hd hh0 hh (p := (along2 s nd * cos s.e.a, along2 s nd * sin s.e.a))
    (c := sin s.e.a) (e := -cos s.e.a) (a := cos s.e.a) (b := sin s.e.a) (n := y) (by linarith) (by linarith) hn
  refine ⟨v, ?_, h2⟩
  unfold extendInhomoRadius
  dsimp only at h1 ⊢
  rw [if_neg (by decide), grp_ok, ok_bind, sdr_ok, ok_bind, hf, hsd]
  have e1 : (s.e.coord nd).1 = along2 s nd * cos s.e.a + y * sin s.e.a := congrArg Prod.fst hco
  have e2 : (s.e.coord nd).2 = along2 s nd * sin s.e.a + y * -cos s.e.a := (congrArg Prod.snd hco).trans (by ring)
  rw [← e1, ← e2] at h1
  exact h1

theorem inhomo12r_1_near (hR : 0 < s.e.R) (hRK : s.e.R ≤ K) (hx : s.e.R < (s.e.coord nd).1) (hx' : (s.e.coord nd).1 - s.e.R ≤ 2 * d)
    (hn : |(s.e.coord nd).2| ≤ d) :
    ∃ v, extendInhomo12r s nd 1 = .ok v ∧ ‖v.2 - sourceTerm s φ 1 nd‖ ≤ 2 * K ^ 2 * (16 * L * d ^ 5 + η * d ^ 2) := by
  have hne : ((s.e.R, 0) : ℝ × ℝ) ≠ (0, 0) := fun hc => hR.ne' (Prod.ext_iff.1 hc).1
  have hS := hs.cart _ hne
  set x := (s.e.coord nd).1 with hxd
  set y := (s.e.coord nd).2 with hyd
  have hw : ((1, 0) : ℝ × ℝ).1 ^ 2 + ((1, 0) : ℝ × ℝ).2 ^ 2 = 1 := by norm_num
  obtain ⟨n1, n2⟩ := normalize_pos hw (m := x - s.e.R) (by linarith)
  simp only [mul_one, mul_zero] at n1 n2
  have key := corner_line hφ hs.nonneg hL hK hk hd (p := (s.e.R, 0)) (q := (x, 0)) (w := (1, 0)) (m := x - s.e.R) (c := 0) (e := 1) (n := y) hw
    (by norm_num) hn (by linarith) hx' (by simp) (by rw [abs_of_pos hR]; exact hRK) (by simpa using by linarith)
  unfold extendInhomo12r
  dsimp only
  rw [if_pos rfl, pure_eq_ok, ok_bind]
  dsimp only
  rw [← hxd, ← hyd, sub_self, sub_self, sub_zero, n1, n2, ok_bind, hS.grad, ok_bind, hS.hess, ok_bind, pure_eq_ok]
  dsimp only at key ⊢
  rw [mul_zero, mul_one] at key
  exact ⟨_, rfl, hS.f ▸ key⟩

theorem inhomo12r_2_near (ha : 0 < s.e.a) (haπ : s.e.a < π) (hR : 0 < s.e.R) (hRK : s.e.R ≤ K) (hx : s.e.R < along2 s nd)
    (hx' : along2 s nd - s.e.R ≤ 2 * d) (hn : |(s.e.coord nd).1 * sin s.e.a - (s.e.coord nd).2 * cos s.e.a| ≤ d) :
    ∃ v, extendInhomo12r s nd 2 = .ok v ∧ ‖v.2 - sourceTerm s φ 2 nd‖ ≤ 2 * K ^ 2 * (16 * L * d ^ 5 + η * d ^ 2) := by
  have hsc := sin_sq_add_cos_sq s.e.a
  have hf : getRadiusPoint s.e.a (s.e.coord nd).1 (s.e.coord nd).2 = (along2 s nd * cos s.e.a, along2 s nd * sin s.e.a) :=
    foot2_along (nd := nd) s ha haπ
  have hsd := (C08_radius_point s.e.a (s.e.coord nd).1 (s.e.coord nd).2 ha haπ).2.2.2.2.1
  have hco := C31_upper_coords s (nd := nd)
  set y := (s.e.coord nd).1 * sin s.e.a - (s.e.coord nd).2 * cos s.e.a with hy
  set x := along2 s nd with hxd
  have e1 : (s.e.coord nd).1 - x * cos s.e.a = y * sin s.e.a := by
    have := congrArg Prod.fst hco
    simp only at this
    linarith
  have e2 : (s.e.coord nd).2 - x * sin s.e.a = y * -cos s.e.a := by
    have := congrArg Prod.snd hco
    simp only at this
    linarith
  have hne : ((s.e.R * cos s.e.a, s.e.R * sin s.e.a) : ℝ × ℝ) ≠ (0, 0) := by
    intro hc
    have c1 := (Prod.ext_iff.1 hc).1
    have c2 := (Prod.ext_iff.1 hc).2
    simp only at c1 c2
    have : s.e.R ^ 2 = 0 := by linear_combination s.e.R * cos s.e.a * c1 + s.e.R * sin s.e.a * c2 - s.e.R ^ 2 * hsc
    exact hR.ne' (pow_eq_zero_iff (by norm_num) |>.1 this)
  have hS := hs.cart _ hne
  have hw : ((cos s.e.a, sin s.e.a) : ℝ × ℝ).1 ^ 2 + ((cos s.e.a, sin s.e.a) : ℝ × ℝ).2 ^ 2 = 1 := by simp only; linarith
  obtain ⟨n1, n2⟩ := normalize_pos hw (m := x - s.e.R) (by linarith)
  have hle : ∀ z, |z| ≤ 1 → |s.e.R * z| ≤ K := fun z hz => by
    rw [abs_mul, abs_of_pos hR]
    have := mul_le_mul_of_nonneg_left hz hR.le
    linarith
  have key := corner_line hφ hs.nonneg hL hK hk hd (p := (s.e.R * cos s.e.a, s.e.R * sin s.e.a)) (q := (x * cos s.e.a, x * sin s.e.a))
    (w := (cos s.e.a, sin s.e.a)) (m := x - s.e.R) (c := sin s.e.a) (e := -cos s.e.a) (n := y) hw
    (by linarith) hn (by linarith) hx' (by ext <;> simp only <;> ring) (hle _ (abs_cos_le_one _)) (hle _ (abs_sin_le_one _))
  unfold extendInhomo12r
  dsimp only
  rw [if_neg (by decide), sdr_ok, ok_bind, grp_ok, ok_bind, pure_eq_ok, ok_bind, hf, hsd]
  dsimp only
  simp only [sub_mul] at n1 n2
  rw [n1, n2, ok_bind, hS.grad, ok_bind, hS.hess, ok_bind, pure_eq_ok, e1, e2]
  exact ⟨_, rfl, hS.f ▸ key⟩

end

/-! ## The outer curve -/

section
variable (s : PSolver) {φ : ℝ × ℝ → ℂ} {η K L d : ℝ} (hs : SrcOf s.src φ η) {nd : Node} {n th : ℝ}
  (hc : s.cache nd = some (some (n, th)))
include hs hc

theorem inhomo0_standard_near (hr : DifferentiableAt ℝ s.e.evalR th) (hp : 0 < s.e.evalR th ^ 2 + deriv s.e.evalR th ^ 2)
    (hpos : 0 < s.e.evalR th) (hnd : s.e.coord nd =
      move (polarPoint (s.e.evalR th) th) (evalNormal s.e.evalR th).1 (evalNormal s.e.evalR th).2 n) (hn : n ≠ 0) :
    ∃ v, doInhomo0Standard s nd = .ok v ∧ v.2 = sourceTerm s φ 0 nd :=
  ⟨_, doInhomo0Standard_ok s hc hr hp (hs.polar _ th hpos) hnd hn, (sourceTerm_outer hc).symm⟩

/-- beyond a corner of the outer curve; `hside` says that the code's test for the side of the curve is right -/
theorem inhomo0lr_near (hφ : ContDiff ℝ 3 φ) (B : SrcBounds φ s.e.a s.e.evalR K L) (hK : 1 ≤ K) (hk : |s.k| ≤ K) (hd : d ≤ 1)
    (hr : DifferentiableAt ℝ s.e.evalR th) (hp : 0 < s.e.evalR th ^ 2 + deriv s.e.evalR th ^ 2)
    (hC : CurveBound s.e.evalR K th) (w1 : s.e.a / 2 ≤ th) (w2 : th ≤ 2 * π + s.e.a / 2) (hR : 0 < s.e.R) (hRK : s.e.R ≤ K)
    (hnd : s.e.coord nd =
      move (polarPoint (s.e.evalR th) th) (evalNormal s.e.evalR th).1 (evalNormal s.e.evalR th).2 n) (hn0 : n ≠ 0) (hn : |n| ≤ d)
    (hside : (s.e.polar nd).1 < s.e.evalR (s.e.polar nd).2 ↔ n < 0) {rs : Fin 3} {th0 : ℝ} (hth0 : th0 = if rs = 1 then 2 * π else s.e.a)
    (h0 : 0 ≤ th0) (h2π : th0 ≤ 2 * π) (hne : polarPoint (s.e.evalR th) th ≠ polarPoint s.e.R th0)
    (hdist : dist2 (polarPoint (s.e.evalR th) th) (polarPoint s.e.R th0) ≤ 2 * d)
    (hrad : |s.e.evalR th - s.e.R| ≤ 2 * d) (hang : |th - th0| ≤ 2 * d) :
    ∃ v, extendInhomo0lr s nd rs = .ok v ∧ ‖v.2 - sourceTerm s φ 0 nd‖ ≤ 2 * K ^ 2 * (56 * K ^ 4 * L * d ^ 5 + η * d ^ 2) := by
  have hL := B.cart
  have hL0 := hL.nonneg (by linarith)
  have hη := hs.nonneg
  have hd0 : 0 ≤ d := (abs_nonneg _).trans hn
  have hpi := pi_pos
  have hS := hs.polar s.e.R th0 hR
  obtain ⟨-, hN, -⟩ := C45_frame hr hp
  set N := evalNormal s.e.evalR th with hNd
  set r1 := s.e.evalR th with hr1
  obtain ⟨-, -, e1, e2⟩ := normalize_normal (c := N.1) (d := N.2) hN hn0
  have hvec : (r1 * cos th - s.e.R * cos th0, r1 * sin th - s.e.R * sin th0) ≠ (0, 0) := fun h =>
    hne (Prod.ext (sub_eq_zero.1 (Prod.ext_iff.1 h).1) (sub_eq_zero.1 (Prod.ext_iff.1 h).2))
  obtain ⟨w, hw1, hw2, hw3, hw4⟩ := normalize_spec hvec
  set m := norm2 (r1 * cos th - s.e.R * cos th0, r1 * sin th - s.e.R * sin th0) with hm
  have hm0 : 0 ≤ m := Real.sqrt_nonneg _
  have hmd : m ≤ 2 * d := hdist
  have hle : ∀ z, |z| ≤ 1 → |s.e.R * z| ≤ K := fun z hz => by
    rw [abs_mul, abs_of_pos hR]
    have := mul_le_mul_of_nonneg_left hz hR.le
    linarith
  have hD := corner_data hφ hη hL hd (p := polarPoint s.e.R th0) (q := polarPoint r1 th) hw4 hm0 hmd
    (by rw [hw2, hw3]; simp [polarPoint]) (hle _ (abs_cos_le_one _)) (hle _ (abs_sin_le_one _))
  have hv : ((s.e.coord nd).1 - r1 * cos th, (s.e.coord nd).2 - r1 * sin th) = (n * N.1, n * N.2) := by
    rw [hnd]; simp only [move, polarPoint]; ext <;> simp
  have hJP : JetOn Set.univ 3 (pdFam (inPolar φ)) := jet3 (inPolar_contDiff (m := 3) (by exact_mod_cast hφ))
  have b1 : |((s.e.R, th0) : ℝ × ℝ).1| + 2 * d ≤ K + 2 * π + 2 := by simp only [abs_of_pos hR]; linarith
  have b2 : |((s.e.R, th0) : ℝ × ℝ).2| + 2 * d ≤ K + 2 * π + 2 := by simp only [abs_of_nonneg h0]; linarith
  have q1 : (((s.e.R, th0) : ℝ × ℝ).1 + (r1 - s.e.R), ((s.e.R, th0) : ℝ × ℝ).2 + (th - th0)) = (r1, th) := by ext <;> simp
  have T2 : ∀ {i j : ℕ}, i + j = 1 → _ := fun {i j} hij => vec_taylor2 hJP B.polar hrad hang b1 b2 (i := i) (j := j) hij
  have T1 : ∀ {i j : ℕ}, i + j = 2 → _ := fun {i j} hij => vec_taylor1 hJP B.polar hrad hang b1 b2 (i := i) (j := j) hij
  rw [q1] at T2 T1
  have hd2 : d ^ 2 ≤ d := by nlinarith
  have s2 : 2 * L * (2 * d) ^ 2 ≤ 8 * L * d := by
    have := mul_le_mul_of_nonneg_left hd2 hL0
    linarith
  have s1 : 2 * L * (2 * d) ≤ 8 * L * d := by
    have := mul_nonneg hL0 hd0
    linarith
  unfold extendInhomo0lr
  rw [cacheGet_ok hc, ok_bind]
  dsimp only
  rw [← hth0, ← hr1, hw1, ok_bind, hS.grad, ok_bind, hS.hess, ok_bind, hv, e1, ok_bind, pure_eq_ok, hS.f, hS.dth, hS.d2th, hS.dr,
    hS.d2r, hS.d2rth, ← hm]
  refine ⟨_, rfl, ?_⟩
  rw [sourceTerm_outer hc]
  simp only [hside]
  rw [flip_if hn0, dot2_flip _ e2, hdot_flip _ e2]
  unfold outerSource inhomoExtendPolar
  rw [mul_comm (m : ℂ), mul_comm (m : ℂ)]
  have hK4 : 1 ≤ K ^ 4 := one_le_pow₀ hK
  have hLd : 0 ≤ L * d ^ 5 := by positivity
  have hbig : 16 * L * d ^ 5 ≤ 56 * K ^ 4 * L * d ^ 5 := by
    have := mul_le_mul_of_nonneg_right hK4 hLd
    linarith
  have hη2 : 0 ≤ η * d ^ 2 := by positivity
  refine inhomo_near hK hk (hn.trans hd) hC.c ⟨rfl, rfl, ?_, ?_, ?_, ?_⟩
  · exact (mul_le_mul_of_nonneg_left hD.f (by positivity)).trans
      ((pow_weight (c := 16 * L * d ^ 5 + η * d ^ 2) hn (by positivity) (by ring)).trans (by linarith))
  · exact (mul_le_mul_of_nonneg_left (hD.dirs hN).1 (by positivity)).trans
      ((pow_weight (c := 16 * L * d ^ 5) hn (by positivity) (by ring)).trans (by linarith))
  · exact (mul_le_mul_of_nonneg_left (hD.dirs hN).2 (by positivity)).trans
      ((pow_weight (c := 16 * L * d ^ 5) hn (by positivity) (by ring)).trans (by linarith))
  · refine (mul_le_mul_of_nonneg_left (c := 7 * K ^ 4 * (8 * L * d)) ?_ (by positivity)).trans
      ((pow_weight (c := 56 * K ^ 4 * L * d ^ 5) hn (by positivity) (by ring)).trans (by linarith))
    refine inhomoD2Fs_near (e := 8 * L * d) hK rfl rfl rfl rfl hC.s1 hC.s2 (B.d1 th ⟨w1, w2⟩) (B.d2 th ⟨w1, w2⟩) ?_ ?_ ?_ ?_ ?_
    · rw [norm_sub_rev]
      refine le_trans (le_of_eq ?_) ((T2 (i := 0) (j := 1) rfl).trans s2)
      simp only [dot2]
      congr 1
      ring
    · rw [norm_sub_rev]; exact (T1 (i := 0) (j := 2) rfl).trans s1
    · rw [norm_sub_rev]
      refine le_trans (le_of_eq ?_) ((T2 (i := 1) (j := 0) rfl).trans s2)
      simp only [dot2]
      congr 1
      ring
    · rw [norm_sub_rev]; exact (T1 (i := 2) (j := 0) rfl).trans s1
    · rw [norm_sub_rev]; exact (T1 (i := 1) (j := 1) rfl).trans s1

end

/-! ## The side of the curve a node is on -/

theorem side_core {q r1 c e n ψ q1 : ℝ} (h1 : r1 * cos ψ = q + n * c) (h2 : r1 * sin ψ = -(n * e)) (hce : c ^ 2 + e ^ 2 = 1)
    (hc : 0.98 ≤ c) (he : |e| ≤ 0.17) (hq : 1.8 ≤ q) (hq1 : |q1 - q| ≤ 0.29 * |ψ|) (hψ : |ψ| ≤ π / 2) (hn : |n| ≤ 0.556)
    (hn0 : n ≠ 0) (hr1 : 0 ≤ r1) : r1 < q1 ↔ n < 0 := by
  have hpi := pi_lt_d4
  have hpi0 := pi_pos
  have hc1 : c ≤ 1 := (abs_le.1 (abs_le_one_of_unit hce).1).2
  obtain ⟨n1, n2⟩ := abs_le.1 hn
  have hlow : 1.244 ≤ r1 := by
    have a1 : r1 * cos ψ ≤ r1 := mul_le_of_le_one_right hr1 (cos_le_one ψ)
    have a2 : -0.556 ≤ n * c := by nlinarith
    norm_num at a2 hq ⊢
    linarith
  have hs : 2 / π * |ψ| ≤ |sin ψ| := by
    have k1 := mul_le_sin (x := |ψ|) (abs_nonneg _) hψ
    refine k1.trans ?_
    rcases abs_cases ψ with ⟨k, -⟩ | ⟨k, -⟩
    · rw [k]; exact le_abs_self _
    · rw [k, sin_neg]; exact neg_le_abs _
  have hprod : r1 * |sin ψ| ≤ 0.17 * |n| := by
    have : r1 * |sin ψ| = |n| * |e| := by
      rw [← abs_of_nonneg hr1, ← abs_mul, h2, abs_neg, abs_mul]
    rw [this, mul_comm]
    exact mul_le_mul_of_nonneg_right he (abs_nonneg _)
  have hang : |ψ| ≤ 0.22 * |n| := by
    have k0 := abs_nonneg ψ
    have k1 : 2 / 3.1416 * |ψ| ≤ 2 / π * |ψ| :=
      mul_le_mul_of_nonneg_right (div_le_div_of_nonneg_left (by norm_num) hpi0 hpi.le) k0
    have k2 : 1.244 * |sin ψ| ≤ r1 * |sin ψ| := mul_le_mul_of_nonneg_right hlow (abs_nonneg _)
    have k3 := abs_nonneg n
    norm_num at k1 k2 hprod ⊢
    linarith
  obtain ⟨m1, m2⟩ := abs_le.1 hq1
  rcases lt_or_gt_of_ne hn0 with h | h
  · refine ⟨fun _ => h, fun _ => ?_⟩
    rw [abs_of_neg h] at hang
    have hsq : r1 ^ 2 = q ^ 2 + 2 * q * n * c + n ^ 2 := by
      have := sin_sq_add_cos_sq ψ
      calc r1 ^ 2 = (r1 * cos ψ) ^ 2 + (r1 * sin ψ) ^ 2 := by linear_combination (-r1 ^ 2) * this
        _ = (q + n * c) ^ 2 + (-(n * e)) ^ 2 := by rw [h1, h2]
        _ = _ := by linear_combination n ^ 2 * hce
    have hle : r1 ≤ q + 0.8 * n := by
      refine abs_le_of_sq_le_sq' ?_ (by norm_num at hq n1 ⊢; linarith) |>.2
      rw [hsq]
      have k1 : q * n * c ≤ 0.98 * (q * n) := by
        have : q * n ≤ 0 := by nlinarith
        nlinarith
      have k2 : n * (q + n) ≤ 0 := by nlinarith
      norm_num at k1 ⊢
      nlinarith
    norm_num at hle hang m1 ⊢
    linarith
  · refine ⟨fun hlt => ?_, fun h' => absurd h' (by linarith)⟩
    exfalso
    rw [abs_of_pos h] at hang
    have a1 : r1 * cos ψ ≤ r1 := mul_le_of_le_one_right hr1 (cos_le_one ψ)
    have a2 : 0.98 * n ≤ n * c := by nlinarith
    norm_num at a2 hang m2
    linarith

/-- a point near a shipped curve has smaller radius than the curve at its own angle exactly if its normal coordinate is negative -/
theorem Tame.side {r : ℝ → ℝ} (T : Tame r) {n th r1 th1 : ℝ} (w1 : π / 4 / 2 ≤ th) (w2 : th ≤ 2 * π + π / 4 / 2) (v1 : π / 4 / 2 ≤ th1)
    (v2 : th1 ≤ 2 * π + π / 4 / 2) (hr1 : 0 ≤ r1) (hn : |n| ≤ 0.556) (hn0 : n ≠ 0) (hψ : |th1 - th| ≤ π / 2)
    (h : polarPoint r1 th1 = move (polarPoint (r th) th) (evalNormal r th).1 (evalNormal r th).2 n) : r1 < r th1 ↔ n < 0 := by
  have hd : DifferentiableAt ℝ r th := (T.smooth.differentiable (by norm_num)) th
  have hlo := T.lo th w1 w2
  have hd1 := T.d1 th w1 w2
  have hσ := speed_pos (T.regular th)
  have hσ2 : √(r th ^ 2 + deriv r th ^ 2) ^ 2 = r th ^ 2 + deriv r th ^ 2 := Real.sq_sqrt (T.regular th).le
  have hsc := sin_sq_add_cos_sq th
  have e1 := congrArg Prod.fst h
  have e2 := congrArg Prod.snd h
  simp only [polarPoint, move, evalNormal, evalTangent, speed_sq hd] at e1 e2
  rw [dYth_eq hd] at e1
  rw [dXth_eq hd] at e2
  set σ := √(r th ^ 2 + deriv r th ^ 2)
  have hrσ : r th ≤ σ := Real.le_sqrt_of_sq_le (by linarith [sq_nonneg (deriv r th)])
  obtain ⟨d1, d2⟩ := abs_le.1 hd1
  have hσ0 : σ ≠ 0 := hσ.ne'
  refine side_core (c := r th / σ) (e := deriv r th / σ) (q := r th) (ψ := th1 - th) ?_ ?_ ?_ ?_ ?_ hlo
    (T.lipschitz w1 w2 v1 v2) hψ hn hn0 hr1
  · rw [cos_sub]
    calc _ = cos th * (r1 * cos th1) + sin th * (r1 * sin th1) := by ring
      _ = _ := by rw [e1, e2]; field_simp; linear_combination (r th * σ + n * r th) * hsc
  · rw [sin_sub]
    calc _ = cos th * (r1 * sin th1) - sin th * (r1 * cos th1) := by ring
      _ = _ := by rw [e1, e2]; field_simp; linear_combination (-(n * deriv r th)) * hsc
  · rw [div_pow, div_pow, ← add_div, hσ2, div_self (T.regular th).ne']
  · rw [le_div_iff₀ hσ]
    refine abs_le_of_sq_le_sq' ?_ (by norm_num at hlo ⊢; linarith) |>.2
    rw [mul_pow, hσ2]
    norm_num at hlo d1 d2 ⊢
    nlinarith
  · rw [abs_div, abs_of_pos hσ, div_le_iff₀ hσ]
    norm_num at hlo hd1 ⊢
    linarith
/-! ## Every node of the discrete boundary -/

theorem chord_radius {u v s t : ℝ} (hu : 0 ≤ u) (hv : 0 ≤ v) : |u - v| ≤ dist2 (polarPoint u s) (polarPoint v t) := by
  unfold dist2
  apply Real.le_sqrt_of_sq_le
  simp only [polarPoint]
  rw [dist_sq_polar, sq_abs]
  have := mul_nonneg (mul_nonneg hu hv) (sub_nonneg.2 (cos_le_one (s - t)))
  linarith

theorem dist2_move {p : ℝ × ℝ} {c e n : ℝ} (h : c ^ 2 + e ^ 2 = 1) : dist2 p (move p c e n) = |n| := by
  unfold dist2 move
  simp only
  rw [show (p.1 - (p.1 + n * c)) ^ 2 + (p.2 - (p.2 + n * e)) ^ 2 = n ^ 2 by linear_combination n ^ 2 * h, Real.sqrt_sq_eq_abs]

/-- the constant of the estimate -/
noncomputable def srcC (K L : ℝ) : ℝ := 2 * K ^ 2 * (56 * K ^ 4 * L + 1)

theorem srcC_outer {K L d η : ℝ} (hL : 0 ≤ L) (hd : 0 ≤ d) (hη : 0 ≤ η) :
    2 * K ^ 2 * (56 * K ^ 4 * L * d ^ 5 + η * d ^ 2) ≤ srcC K L * (d ^ 5 + η * d ^ 2) := by
  unfold srcC
  rw [mul_assoc (2 * K ^ 2)]
  refine mul_le_mul_of_nonneg_left ?_ (by positivity)
  have : 0 ≤ 56 * K ^ 4 * L * (η * d ^ 2) := by positivity
  have : 0 ≤ d ^ 5 := by positivity
  linarith

/-- the estimate itself: nothing is left of it for a source with no third derivatives -/
noncomputable def srcS (K L d η : ℝ) : ℝ := 2 * K ^ 2 * (56 * K ^ 4 * L * d ^ 5 + η * d ^ 2)

theorem srcS_side {K L d η : ℝ} (hK : 1 ≤ K) (hL : 0 ≤ L) (hd : 0 ≤ d) :
    2 * K ^ 2 * (16 * L * d ^ 5 + η * d ^ 2) ≤ srcS K L d η := by
  unfold srcS
  refine mul_le_mul_of_nonneg_left ?_ (by positivity)
  have h1 : 0 ≤ L * d ^ 5 := by positivity
  have := mul_le_mul_of_nonneg_right (one_le_pow₀ hK : 1 ≤ K ^ 4) h1
  linarith

variable {a R ρ M m1 m2 α β : ℝ} {r : ℝ → ℝ}

/-- every inhomogeneous extension the code makes at a node of the discrete boundary is within `srcS` (a constant times `d⁵ + η d²`)
of the extension of the exact source -/
theorem inhomo_node {iter : Iter} (hit : IsIter iter) {b : Brentq} (hb : BrentqSpec b) {N order : ℕ} (hN : 0 < N) {AD : ℝ} (hAD : 0 < AD)
    (g : Gentle a R (AD / N * √2) ρ M m1 m2 α β r) (hr : ContDiff ℝ 6 r) (hp : ∀ t, 0 < r t ^ 2 + deriv r t ^ 2)
    {k eps : ℝ} {nc nr : ℕ} {source : Source} {s : PSolver}
    (hs : psInit iter (mkEnv b N AD a R r) order k eps nc nr source = .ok s)
    {φ : ℝ × ℝ → ℂ} (hφ : ContDiff ℝ 3 φ) {η : ℝ} (hsrc : SrcOf source φ η) {K L : ℝ} (hK : 1 ≤ K) (hk : |k| ≤ K) (hRK : R ≤ K)
    (hcurve : ∀ th ∈ Set.Icc (a / 2) (2 * π + a / 2), CurveBound r K th) (B : SrcBounds φ a r K L)
    {d : ℝ} (hd : d ≤ 1) (hδ : AD / N * √2 ≤ d) (hδR : π * (AD / N * √2) / R ≤ d) {sid : Fin 3} {nd : Node}
    (hpos : ∀ t ∈ Set.Icc (a / 2) (2 * π + a / 2), 0 < r t)
    (hoff : ∀ t ∈ Set.Icc (a / 2) (2 * π + a / 2), getCoord AD N nd.1 nd.2 ≠ polarPoint (r t) t)
    (hside : ∀ n th, th ∈ Set.Icc (a / 2) (2 * π + a / 2) → n ≠ 0 → |n| ≤ AD / N * √2 →
      (th < a ∧ dist2 (getCoord AD N nd.1 nd.2) (polarPoint R a) ≤ AD / N * √2 ∨
        2 * π < th ∧ dist2 (getCoord AD N nd.1 nd.2) (polarPoint R (2 * π)) ≤ AD / N * √2) →
      getCoord AD N nd.1 nd.2 = move (polarPoint (r th) th) (evalNormal r th).1 (evalNormal r th).2 n →
      ((s.e.polar nd).1 < r (s.e.polar nd).2 ↔ n < 0))
    (hnd : nd ∈ s.G.allGamma sid) {et : EType} (het : getEtype s.e s.cache sid nd = .ok et) :
    ∃ v, doInhomo s sid et nd = .ok v ∧ ‖v.2 - sourceTerm s φ sid nd‖ ≤ srcS K L d η := by
  have hpi := pi_pos
  have ha := g.apos
  have haπ := g.aπ
  have hR := g.Rpos
  have hη := hsrc.nonneg
  obtain ⟨G, hG, hdist⟩ := C12_gentle hit hb N order hAD g hp
  rw [psInit_ok hG] at hs
  cases hs
  obtain ⟨hsub, -, -⟩ := (C12_all_gamma hit (e := mkEnv b N AD a R r) g.Rpos.le ha haπ order).2 G hG
  set s : PSolver := ⟨mkEnv b N AD a R r, order, k, eps, setupBasis nc nr, G, buildCache (mkEnv b N AD a R r) (G.allGamma 0), source⟩
    with hsdef
  have hsrc' : SrcOf s.src φ η := hsrc
  have hL : 0 ≤ L := B.cart.nonneg (by linarith)
  have hN' : (0:ℝ) < N := by exact_mod_cast hN
  have hδ0 : 0 ≤ AD / N * √2 := by positivity
  have hd0 : 0 ≤ d := hδ0.trans hδ
  have hh0 : 0 < s.e.AD / (10 * s.e.N) := by
    show 0 < AD / (10 * N)
    positivity
  have hh : s.e.AD / (10 * s.e.N) ≤ d := by
    show AD / (10 * N) ≤ d
    have h2 : (1:ℝ) ≤ √2 := Real.one_le_sqrt.2 (by norm_num)
    have h3 : AD / (10 * N) = AD / N * (1 / 10) := by field_simp
    have h4 : AD / N * (1 / 10) ≤ AD / N * √2 := mul_le_mul_of_nonneg_left (by linarith) (by positivity)
    linarith
  obtain ⟨d', ⟨⟨q, hq, hqd⟩, -⟩, hiff⟩ := hdist sid nd ((hsub sid).2 nd hnd)
  have hqδ : dist2 (getCoord AD N nd.1 nd.2) q ≤ AD / N * √2 := by rw [← hqd]; exact hiff.1 hnd
  unfold doInhomo
  rw [if_neg (by rw [hsrc'.inhomo]; decide)]
  fin_cases sid
  · obtain ⟨t, ht1, ht2, rfl⟩ := hq
    obtain ⟨p1, p2, p3, p4⟩ := env_polar (mkEnv b N AD a R r) ha (by show a ≤ 4 * π; linarith) nd
    have hP : getCoord AD N nd.1 nd.2 = polarPoint ((mkEnv b N AD a R r).polar nd).1 ((mkEnv b N AD a R r).polar nd).2 :=
      p1.symm
    rw [hP] at hqδ
    obtain ⟨n, th, hb', e1, hn, w1, w2, hleft, hright⟩ := outer_coords g hp hb p2 ht1 ht2 p3 p4.le hqδ
    rw [← hP] at e1 hleft hright
    have hc : s.cache nd = some (some (n, th)) := (if_pos hnd).trans (congrArg some hb')
    have hnd' : |n| ≤ d := hn.trans hδ
    have hdif : DifferentiableAt ℝ r th := (hr.differentiable (by norm_num)) th
    obtain ⟨-, hNn, -⟩ := C45_frame hdif (hp th)
    have hn0 : n ≠ 0 := by
      rintro rfl
      refine hoff th ⟨w1, w2⟩ (e1.trans ?_)
      simp [move]
    -- beyond a corner
    have corner : ∀ th0, 0 ≤ th0 → th0 ≤ 2 * π → |th - th0| ≤ π * (AD / N * √2) / R →
        dist2 (getCoord AD N nd.1 nd.2) (polarPoint R th0) ≤ AD / N * √2 →
        dist2 (polarPoint (r th) th) (polarPoint R th0) ≤ 2 * d ∧ |r th - R| ≤ 2 * d ∧ |th - th0| ≤ 2 * d := by
      intro th0 _ _ h1 h2
      have h3 := dist2_triangle (polarPoint (r th) th) (polarPoint R th0) (getCoord AD N nd.1 nd.2)
      have h4 : dist2 (polarPoint (r th) th) (getCoord AD N nd.1 nd.2) ≤ d := by
        rw [e1, dist2_move hNn]; exact hnd'
      have h5 : dist2 (polarPoint (r th) th) (polarPoint R th0) ≤ 2 * d := by linarith
      exact ⟨h5, (chord_radius (hpos th ⟨w1, w2⟩).le hR.le).trans h5, by linarith⟩
    have het' : et = if th > 2 * π then .right else if th < a then .left else .standard := by
      unfold getEtype at het
      simp only [Fin.zero_eta, if_true, hc, pure_eq_ok] at het
      exact (Except.ok.inj het).symm
    rw [het']
    split_ifs with c1 c2
    · obtain ⟨r1, r2⟩ := hright c1
      obtain ⟨q1, q2, q3⟩ := corner (2 * π) (by linarith) le_rfl r1 r2
      obtain ⟨v, hv1, hv2⟩ := inhomo0lr_near s hsrc' hc hφ B hK hk hd hdif (hp th) (hcurve th ⟨w1, w2⟩) w1 w2 hR hRK e1 hn0 hnd'
        (hside n th ⟨w1, w2⟩ hn0 hn (Or.inr ⟨c1, r2⟩) e1) (rs := 1) (th0 := 2 * π) (by rw [if_pos rfl]) (by linarith) le_rfl
        (polar_ne_corner (hpos th ⟨w1, w2⟩) c1.ne' (abs_lt.2 ⟨by linarith, by linarith⟩)) q1 q2 q3
      exact ⟨v, hv1, hv2⟩
    · obtain ⟨r1, r2⟩ := hleft c2
      obtain ⟨q1, q2, q3⟩ := corner a ha.le (by linarith) r1 r2
      obtain ⟨v, hv1, hv2⟩ := inhomo0lr_near s hsrc' hc hφ B hK hk hd hdif (hp th) (hcurve th ⟨w1, w2⟩) w1 w2 hR hRK e1 hn0 hnd'
        (hside n th ⟨w1, w2⟩ hn0 hn (Or.inl ⟨c2, r2⟩) e1) (rs := 2) (th0 := a) (by rw [if_neg (by decide)]; rfl) ha.le (by linarith)
        (polar_ne_corner (hpos th ⟨w1, w2⟩) c2.ne (abs_lt.2 ⟨by linarith, by linarith⟩)) q1 q2 q3
      exact ⟨v, hv1, hv2⟩
    · obtain ⟨v, hv1, hv2⟩ := inhomo0_standard_near s hsrc' hc hdif (hp th) (hpos th ⟨w1, w2⟩) e1 hn0
      refine ⟨v, hv1, ?_⟩
      change v.2 = sourceTerm s φ ⟨0, _⟩ nd at hv2
      rw [hv2, sub_self, norm_zero]
      unfold srcS
      positivity
  · obtain ⟨t, ht1, ht2, rfl⟩ := hq
    set x := (getCoord AD N nd.1 nd.2).1 with hx
    set y := (getCoord AD N nd.1 nd.2).2 with hy
    have hsq : (x - t) ^ 2 + y ^ 2 ≤ d ^ 2 := by
      have h1 := hqδ.trans hδ
      unfold dist2 at h1
      have h2 := Real.sqrt_le_iff.1 h1
      have h3 := h2.2
      simp only [sub_zero] at h3
      exact h3
    have hyd : |y| ≤ d := abs_le_of_sq_le_sq (by nlinarith [sq_nonneg (x - t)]) hd0
    have hxt : |x - t| ≤ d := abs_le_of_sq_le_sq (by nlinarith [sq_nonneg y]) hd0
    obtain ⟨q1, q2⟩ := abs_le.1 hxt
    have het' : et = if x < 0 then .left else if x > R then .right else .standard := by
      unfold getEtype at het
      simp only [Fin.mk_one, one_ne_zero, if_false, if_true, pure_eq_ok] at het
      exact (Except.ok.inj het).symm
    obtain ⟨v, hv1, hv2⟩ := inhomoRadius1_near s hφ hsrc' B.cart hK hk hd (nd := nd) hh0 hh hyd
    rw [het']
    split_ifs with c1 c2
    · exact ⟨v, hv1, hv2.trans (srcS_side hK hL hd0)⟩
    · obtain ⟨v, hv1, hv2⟩ := inhomo12r_1_near s hφ hsrc' B.cart hK hk hd (nd := nd) hR hRK c2 (by show x - R ≤ 2 * d; linarith) hyd
      exact ⟨v, hv1, hv2.trans (srcS_side hK hL hd0)⟩
    · exact ⟨v, hv1, hv2.trans (srcS_side hK hL hd0)⟩
  · obtain ⟨t, ht1, ht2, rfl⟩ := hq
    have hsc := sin_sq_add_cos_sq a
    have hcoord := C31_upper_coords s (nd := nd)
    set x := along2 s nd with hx
    set y := (s.e.coord nd).1 * sin s.e.a - (s.e.coord nd).2 * cos s.e.a with hy
    have hcoord' : getCoord AD N nd.1 nd.2 = (x * cos a + y * sin a, x * sin a - y * cos a) := hcoord
    have hsq : (x - t) ^ 2 + y ^ 2 ≤ d ^ 2 := by
      have h1 := hqδ.trans hδ
      unfold dist2 at h1
      have h2 := Real.sqrt_le_iff.1 h1
      have h3 := h2.2
      rw [hcoord'] at h3
      simp only [polarPoint] at h3
      have e : (x * cos a + y * sin a - t * cos a) ^ 2 + (x * sin a - y * cos a - t * sin a) ^ 2 = (x - t) ^ 2 + y ^ 2 := by
        linear_combination ((x - t) ^ 2 + y ^ 2) * hsc
      linarith
    have hyd : |y| ≤ d := abs_le_of_sq_le_sq (by nlinarith [sq_nonneg (x - t)]) hd0
    have hxt : |x - t| ≤ d := abs_le_of_sq_le_sq (by nlinarith [sq_nonneg y]) hd0
    obtain ⟨q1, q2⟩ := abs_le.1 hxt
    have het2 := etype2 (nd := nd) s ha haπ
    have het' : et = if x < 0 then .left else if x > R then .right else .standard :=
      Except.ok.inj (het.symm.trans het2)
    obtain ⟨v, hv1, hv2⟩ := inhomoRadius2_near s hφ hsrc' B.cart hK hk hd (nd := nd) ha haπ hh0 hh hyd
    rw [het']
    split_ifs with c1 c2
    · exact ⟨v, hv1, hv2.trans (srcS_side hK hL hd0)⟩
    · obtain ⟨v, hv1, hv2⟩ := inhomo12r_2_near s hφ hsrc' B.cart hK hk hd (nd := nd) ha haπ hR hRK c2
        (by show x - R ≤ 2 * d; linarith) hyd
      exact ⟨v, hv1, hv2.trans (srcS_side hK hL hd0)⟩
    · exact ⟨v, hv1, hv2.trans (srcS_side hK hL hd0)⟩

/-! ## The source array -/

theorem dist2_proj {c e : ℝ} (h : c ^ 2 + e ^ 2 = 1) (x y : ℝ × ℝ) : c * (x.1 - y.1) + e * (x.2 - y.2) ≤ dist2 x y := by
  unfold dist2
  refine Real.le_sqrt_of_sq_le ?_
  have : (x.1 - y.1) ^ 2 + (x.2 - y.2) ^ 2 - (c * (x.1 - y.1) + e * (x.2 - y.2)) ^ 2 = (c * (x.2 - y.2) - e * (x.1 - y.1)) ^ 2 := by
    linear_combination (-((x.1 - y.1) ^ 2 + (x.2 - y.2) ^ 2)) * h
  have := sq_nonneg (c * (x.2 - y.2) - e * (x.1 - y.1))
  linarith

/-- a point of the missing wedge is as far from the domain as from the nearer side -/
theorem wedge_lower {ρ t σ t' : ℝ} (haπ : a < π) (h1 : 0 ≤ t) (h2 : t ≤ a / 2) (hρ : 0 ≤ ρ) (hσ : 0 ≤ σ) (k1 : a ≤ t')
    (k2 : t' ≤ 2 * π) : ρ * sin t ≤ dist2 (polarPoint ρ t) (polarPoint σ t') := by
  have hpi := pi_pos
  have hsc := sin_sq_add_cos_sq a
  by_cases hy : sin t' ≤ 0
  · have := dist2_proj (c := 0) (e := 1) (by norm_num) (polarPoint ρ t) (polarPoint σ t')
    simp only [polarPoint] at this
    have h3 := mul_nonpos_of_nonneg_of_nonpos hσ hy
    unfold polarPoint
    linarith
  · have ht' : t' < π := by
      by_contra hc
      have := sin_nonneg_of_nonneg_of_le_pi (x := t' - π) (by linarith) (by linarith)
      rw [sin_sub_pi] at this
      linarith
    have h3 := dist2_proj (c := sin a) (e := -cos a) (by linarith) (polarPoint ρ t) (polarPoint σ t')
    simp only [polarPoint] at h3
    have h4 : 0 ≤ sin (t' - a) := sin_nonneg_of_nonneg_of_le_pi (by linarith) (by linarith)
    have h5 : sin t ≤ sin (a - t) := by
      have e : sin (a - t) - sin t = 2 * sin ((a - t - t) / 2) * cos ((a - t + t) / 2) := sin_sub_sin _ _
      have e1 : 0 ≤ sin ((a - t - t) / 2) := sin_nonneg_of_nonneg_of_le_pi (by linarith) (by linarith)
      have e2 : 0 ≤ cos ((a - t + t) / 2) := cos_nonneg_of_neg_pi_div_two_le_of_le (by linarith) (by linarith)
      have := mul_nonneg (mul_nonneg (by norm_num : (0:ℝ) ≤ 2) e1) e2
      linarith
    rw [sin_sub] at h4 h5
    have h6 := mul_nonneg hσ h4
    have h7 := mul_le_mul_of_nonneg_left h5 hρ
    unfold polarPoint
    linarith

theorem wedge_upper {ρ t σ t' : ℝ} (ha : 0 < a) (haπ : a < π) (h1 : a / 2 ≤ t) (h2 : t ≤ a) (hρ : 0 ≤ ρ) (hσ : 0 ≤ σ) (k1 : a ≤ t')
    (k2 : t' ≤ 2 * π) : ρ * sin (a - t) ≤ dist2 (polarPoint ρ t) (polarPoint σ t') := by
  have hpi := pi_pos
  have hsc := sin_sq_add_cos_sq a
  by_cases hy : 0 ≤ sin (t' - a)
  · have h3 := dist2_proj (c := sin a) (e := -cos a) (by linarith) (polarPoint ρ t) (polarPoint σ t')
    simp only [polarPoint] at h3
    rw [sin_sub] at hy
    have h6 := mul_nonneg hσ hy
    rw [sin_sub]
    unfold polarPoint
    linarith
  · have ht' : a + π < t' := by
      by_contra hc
      exact hy (sin_nonneg_of_nonneg_of_le_pi (by linarith) (by linarith))
    have h3 := dist2_proj (c := 0) (e := 1) (by norm_num) (polarPoint ρ t) (polarPoint σ t')
    simp only [polarPoint] at h3
    have h4 : 0 ≤ sin (t' - π) := sin_nonneg_of_nonneg_of_le_pi (by linarith) (by linarith)
    rw [sin_sub_pi] at h4
    have h5 : sin (a - t) ≤ sin t := by
      have e : sin t - sin (a - t) = 2 * sin ((t - (a - t)) / 2) * cos ((t + (a - t)) / 2) := sin_sub_sin _ _
      have e1 : 0 ≤ sin ((t - (a - t)) / 2) := sin_nonneg_of_nonneg_of_le_pi (by linarith) (by linarith)
      have e2 : 0 ≤ cos ((t + (a - t)) / 2) := cos_nonneg_of_neg_pi_div_two_le_of_le (by linarith) (by linarith)
      have := mul_nonneg (mul_nonneg (by norm_num : (0:ℝ) ≤ 2) e1) e2
      linarith
    have h6 := mul_nonneg hσ h4
    have h7 := mul_le_mul_of_nonneg_left h5 hρ
    unfold polarPoint
    linarith

/-- the point `extend_f` expands the source about is within `√2` mesh widths of the node -/
theorem extendFPoint_near {iter : Iter} (hit : IsIter iter) {b : Brentq} (hb : BrentqSpec b) {N order : ℕ} {AD : ℝ} (hAD : 0 < AD)
    (g : Gentle a R (AD / N * √2) ρ M m1 m2 α β r) (hp : ∀ t, 0 < r t ^ 2 + deriv r t ^ 2)
    {k eps : ℝ} {nc nr : ℕ} {source : Source} {s : PSolver}
    (hs : psInit iter (mkEnv b N AD a R r) order k eps nc nr source = .ok s)
    (hm : ∀ p ∈ s.G.Mplus, 2 ≤ p.1 ∧ p.1 ≤ (N : ℤ) - 2 ∧ 2 ≤ p.2 ∧ p.2 ≤ (N : ℤ) - 2)
    {nd : Node} (hnd : nd ∈ s.G.Kplus \ s.G.Mplus) {p : ℝ × ℝ} (h : extendFPoint s nd = .ok (some p)) :
    dist2 (getCoord AD N nd.1 nd.2) p ≤ AD / N * √2 := by
  have hpi := pi_pos
  have ha := g.apos
  have haπ := g.aπ
  have hR := g.Rpos
  obtain ⟨G, hG, hdist⟩ := C12_gentle hit hb N order hAD g hp
  rw [psInit_ok hG] at hs
  cases hs
  obtain ⟨hsub, -, -⟩ := (C12_all_gamma hit (e := mkEnv b N AD a R r) g.Rpos.le ha haπ order).2 G hG
  set s : PSolver := ⟨mkEnv b N AD a R r, order, k, eps, setupBasis nc nr, G, buildCache (mkEnv b N AD a R r) (G.allGamma 0), source⟩
    with hsdef
  obtain ⟨hout, -, x, ⟨σ, t', k1, k2, k3, k4, rfl⟩, hx⟩ := kplus_outside hit hAD ha haπ (by rw [g.at_two_pi]; exact hR.le) hG hm hnd
  have hle : AD / N ≤ AD / N * √2 := le_mul_of_one_le_right (by positivity) (Real.one_le_sqrt.2 (by norm_num))
  obtain ⟨p1, p2, p3, p4⟩ := env_polar (mkEnv b N AD a R r) ha (by show a ≤ 4 * π; linarith) nd
  have hP : getCoord AD N nd.1 nd.2 = polarPoint ((mkEnv b N AD a R r).polar nd).1 ((mkEnv b N AD a R r).polar nd).2 :=
    p1.symm
  change a / 2 ≤ _ at p3
  change _ < 2 * π + a / 2 at p4
  unfold extendFPoint at h
  simp only [] at h
  rcases hsid : extendFSid s nd with er | sid
  · rw [hsid, error_bind] at h; cases h
  rw [hsid, ok_bind] at h
  rcases het : getEtype s.e s.cache sid nd with er | et
  · rw [het, error_bind] at h; cases h
  rw [het, ok_bind] at h
  have hside : sid ≠ 0 → (s.e.polar nd).1 < s.e.evalR (s.e.polar nd).2 ∧
      (sid = 1 → 2 * π ≤ (s.e.polar nd).2) ∧ (sid ≠ 1 → (s.e.polar nd).2 < 2 * π) := by
    intro h0
    obtain ⟨bb, -, hb⟩ := extendFSid_inv hsid
    split_ifs at hb with c1 c2 c3
    · exact absurd hb h0
    · exact ⟨c2, fun _ => c3, fun h => absurd hb h⟩
    · refine ⟨c2, fun h => ?_, fun _ => not_le.1 c3⟩
      rw [hb] at h; exact absurd h (by decide)
    · exact absurd hb h0
  by_cases c1 : sid = 1
  · rw [if_pos c1, pure_eq_ok] at h
    obtain ⟨-, h2, -⟩ := hside (by rw [c1]; decide)
    have h2 : 2 * π ≤ ((mkEnv b N AD a R r).polar nd).2 := h2 c1
    have h' := Option.some.inj (Except.ok.inj h)
    set t := ((mkEnv b N AD a R r).polar nd).2 - 2 * π with ht
    set ρ1 := ((mkEnv b N AD a R r).polar nd).1
    have hPt : getCoord AD N nd.1 nd.2 = polarPoint ρ1 t := by
      rw [hP]
      unfold polarPoint
      rw [ht, cos_sub_two_pi, sin_sub_two_pi]
    have key := wedge_lower (a := a) (t := t) (t' := t') (ρ := ρ1) (σ := σ) haπ (by linarith) (by linarith) p2 k3 k1 k2
    rw [← hPt, hx] at key
    refine le_trans ?_ hle
    rw [← h']
    have hy : 0 ≤ ρ1 * sin t := mul_nonneg p2 (sin_nonneg_of_nonneg_of_le_pi (by linarith) (by linarith))
    have e : dist2 (getCoord AD N nd.1 nd.2) ((s.e.coord nd).1, 0) = ρ1 * sin t := by
      change dist2 (getCoord AD N nd.1 nd.2) ((getCoord AD N nd.1 nd.2).1, 0) = _
      rw [hPt]
      unfold dist2 polarPoint
      simp only [sub_self, sub_zero]
      rw [zero_pow (by norm_num), zero_add, Real.sqrt_sq hy]
    rw [e]
    exact key
  rw [if_neg c1] at h
  by_cases c2 : sid = 2
  · rw [if_pos c2, grp_ok, ok_bind, pure_eq_ok] at h
    obtain ⟨h1, -, h2⟩ := hside (by rw [c2]; decide)
    have h2 : ((mkEnv b N AD a R r).polar nd).2 < 2 * π := h2 c1
    have h' := Option.some.inj (Except.ok.inj h)
    set t := ((mkEnv b N AD a R r).polar nd).2 with ht
    set ρ1 := ((mkEnv b N AD a R r).polar nd).1
    have hta : t < a := by
      by_contra hge
      exact hout (by rw [hP]; exact ⟨_, _, not_lt.1 hge, h2.le, p2, h1.le, rfl⟩)
    have key := wedge_upper (a := a) (t := t) (t' := t') (ρ := ρ1) (σ := σ) ha haπ p3 hta.le p2 k3 k1 k2
    rw [← hP, hx] at key
    refine le_trans ?_ hle
    rw [← h']
    have hy : 0 ≤ ρ1 * sin (a - t) := mul_nonneg p2 (sin_nonneg_of_nonneg_of_le_pi (by linarith) (by linarith))
    have hc8 := C08_radius_point a (getCoord AD N nd.1 nd.2).1 (getCoord AD N nd.1 nd.2).2 ha haπ
    have e : dist2 (getCoord AD N nd.1 nd.2) (getRadiusPoint s.e.a (s.e.coord nd).1 (s.e.coord nd).2) = ρ1 * sin (a - t) := by
      change dist2 (getCoord AD N nd.1 nd.2) (getRadiusPoint a (getCoord AD N nd.1 nd.2).1 (getCoord AD N nd.1 nd.2).2) = _
      have h6 := hc8.2.2.2.2.2
      have h5 := hc8.2.2.2.2.1
      set f := getRadiusPoint a (getCoord AD N nd.1 nd.2).1 (getCoord AD N nd.1 nd.2).2
      rw [h5] at h6
      have e1 := congrArg Prod.fst h6
      have e2 := congrArg Prod.snd h6
      simp only at e1 e2
      have e3 : (getCoord AD N nd.1 nd.2).1 * sin a - (getCoord AD N nd.1 nd.2).2 * cos a = ρ1 * sin (a - t) := by
        rw [hP, sin_sub]; unfold polarPoint; ring
      rw [e3] at e1 e2
      unfold dist2
      have e4 : ((getCoord AD N nd.1 nd.2).1 - f.1) ^ 2 + ((getCoord AD N nd.1 nd.2).2 - f.2) ^ 2 = (ρ1 * sin (a - t)) ^ 2 := by
        have a1 : (getCoord AD N nd.1 nd.2).1 - f.1 = ρ1 * sin (a - t) * sin a := by linarith
        have a2 : (getCoord AD N nd.1 nd.2).2 - f.2 = -(ρ1 * sin (a - t) * cos a) := by linarith
        rw [a1, a2]
        linear_combination (ρ1 * sin (a - t)) ^ 2 * sin_sq_add_cos_sq a
      rw [e4, Real.sqrt_sq hy]
    rw [e]
    exact key
  rw [if_neg c2] at h
  have c0 : sid = 0 := by
    fin_cases sid
    · rfl
    · exact absurd rfl c1
    · exact absurd rfl c2
  subst c0
  by_cases hmem : nd ∈ G.allGamma 0
  swap
  · have hcn : s.cache nd = none := if_neg hmem
    rw [hcn] at h
    simp only [pure_eq_ok] at h
    cases h
  obtain ⟨d', ⟨⟨q, hq, hqd⟩, -⟩, hiff⟩ := hdist 0 nd ((hsub 0).2 nd hmem)
  have hqδ : dist2 (getCoord AD N nd.1 nd.2) q ≤ AD / N * √2 := by rw [← hqd]; exact hiff.1 hmem
  obtain ⟨t, ht1, ht2, rfl⟩ := hq
  rw [hP] at hqδ
  obtain ⟨n, th, hb', e1, hn, w1, w2, hleft, hright⟩ := outer_coords g hp hb p2 ht1 ht2 p3 p4.le hqδ
  rw [← hP] at e1 hleft hright
  have hc : s.cache nd = some (some (n, th)) := (if_pos hmem).trans (congrArg some hb')
  obtain ⟨-, hNn, -⟩ := C45_frame ((g.smooth.differentiable (by norm_num)) th) (hp th)
  have het' : et = if th > 2 * π then .right else if th < a then .left else .standard := by
    unfold getEtype at het
    simp only [if_true, hc, pure_eq_ok] at het
    exact (Except.ok.inj het).symm
  rw [hc] at h
  simp only [] at h
  cases et with
  | standard =>
    simp only [pure_eq_ok] at h
    have h' := Option.some.inj (Except.ok.inj h)
    rw [← h', dist2_comm (getCoord AD N nd.1 nd.2)]
    change dist2 (polarPoint (r th) th) _ ≤ _
    rw [e1, dist2_move hNn]
    exact hn
  | left =>
    simp only [pure_eq_ok] at h
    have h' := Option.some.inj (Except.ok.inj h)
    rw [← h']
    split_ifs at het' with q1 q2
    exact (hleft q2).2
  | right =>
    simp only [pure_eq_ok] at h
    have h' := Option.some.inj (Except.ok.inj h)
    rw [← h']
    split_ifs at het' with q1 q2
    have := (hright q1).2
    unfold polarPoint at this
    rw [cos_two_pi, sin_two_pi, mul_one, mul_zero] at this
    exact this

/-- the value `extend_f` computes -/
theorem taylor2_near {φ : ℝ × ℝ → ℂ} (hφ : ContDiff ℝ 3 φ) {K L d : ℝ} (hL : Third (pdFam φ) (K + 2) L) {p x : ℝ × ℝ}
    (hd : dist2 x p ≤ d) (h1 : |p.1| + d ≤ K + 2) (h2 : |p.2| + d ≤ K + 2) :
    ‖taylor2 (pdFam φ 0 0 p) (pdFam φ 1 0 p, pdFam φ 0 1 p) ((pdFam φ 2 0 p, pdFam φ 1 1 p), (pdFam φ 1 1 p, pdFam φ 0 2 p)) p x -
      φ x‖ ≤ 2 * L * d ^ 3 := by
  have hsq : (x.1 - p.1) ^ 2 + (x.2 - p.2) ^ 2 ≤ d ^ 2 := (Real.sqrt_le_iff.1 hd).2
  have hd0 : 0 ≤ d := (Real.sqrt_nonneg _).trans hd
  have key := vec_taylor3 (jet3 hφ) hL (p := p) (A := x.1 - p.1) (B := x.2 - p.2) (D := d)
    (abs_le_of_sq_le_sq (by nlinarith [sq_nonneg (x.2 - p.2)]) hd0) (abs_le_of_sq_le_sq (by nlinarith [sq_nonneg (x.1 - p.1)]) hd0) h1 h2
  rw [norm_sub_rev] at key
  have e : ((p.1 + (x.1 - p.1), p.2 + (x.2 - p.2)) : ℝ × ℝ) = x := by ext <;> simp
  rw [e] at key
  refine le_trans (le_of_eq ?_) key
  congr 1
  unfold taylor2 dir1 dir2
  have : pdFam φ 0 0 x = φ x := rfl
  rw [this]
  push_cast
  ring

end Pot
