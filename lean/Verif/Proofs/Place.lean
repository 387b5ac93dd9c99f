import Verif.Model.SolverInit
import Verif.Proofs.GridSets
import Verif.Proofs.ArcGeom
import Verif.Props.Boundary
import Verif.Proofs.LinopSpec

/-! # The distances computed by `ps_construct_grids`, and the placing loop -/

namespace Pot
open Real Spec

/-- the distance the code computes for a segment (used with the empty cache) -/
noncomputable def segDist (e : Env) (nd : Node) (sid : Fin 3) : ℝ :=
  let p := e.coord nd
  match sid with
  | 0 =>
    match e.bcoord (e.polar nd).1 (e.polar nd).2 with
    | none => dformula e.R 0 p.1 p.2
    | some c =>
      if c.2 > 2 * π then dformula e.R 0 p.1 p.2
      else if c.2 < e.a then dformula (e.R * cos e.a) (e.R * sin e.a) p.1 p.2 else |c.1|
  | 1 => if p.1 < 0 then dformula 0 0 p.1 p.2 else if p.1 > e.R then dformula e.R 0 p.1 p.2 else |p.2|
  | 2 =>
    let y1 := (getRadiusPoint e.a p.1 p.2).2
    if y1 < 0 then dformula 0 0 p.1 p.2
    else if y1 > e.R * sin e.a then dformula (e.R * cos e.a) (e.R * sin e.a) p.1 p.2
    else distToRadius e.a p.1 p.2

theorem place_dist (e : Env) (nd : Node) (sid : Fin 3) :
    (getEtype e (fun _ => none) sid nd >>= getDist e nd sid) = .ok (segDist e nd sid) := by
  fin_cases sid
  · unfold getEtype getDist segDist
    simp only [Fin.zero_eta, if_true]
    rcases h : e.bcoord (e.polar nd).1 (e.polar nd).2 with _ | c
    · simp
    · simp only [pure_eq_ok, ok_bind]
      split_ifs <;> simp_all
  · have h1 : getEtype e (fun _ => none) 1 nd = .ok (if (e.coord nd).1 < 0 then .left
        else if (e.coord nd).1 > e.R then .right else .standard) := rfl
    simp only [Fin.mk_one, h1, ok_bind]
    unfold getDist segDist
    simp only
    by_cases c1 : (e.coord nd).1 < 0
    · rw [if_pos c1, if_pos c1]; rfl
    · by_cases c2 : (e.coord nd).1 > e.R
      · rw [if_neg c1, if_neg c1, if_pos c2, if_pos c2]; rfl
      · rw [if_neg c1, if_neg c1, if_neg c2, if_neg c2]; rfl
  · have h := (C08_assert e.a (e.coord nd).1 (e.coord nd).2 2).2 rfl
    have h1 : getEtype e (fun _ => none) 2 nd = (getRadiusPointPy e.a 2 (e.coord nd).1 (e.coord nd).2 >>=
        fun p => .ok (if p.2 < 0 then .left else if p.2 > e.R * sin e.a then .right else .standard)) := rfl
    simp only [Fin.reduceFinMk, h1, h.1, ok_bind]
    unfold getDist segDist
    simp only
    by_cases c1 : (getRadiusPoint e.a (e.coord nd).1 (e.coord nd).2).2 < 0
    · simp [c1]
    · by_cases c2 : (getRadiusPoint e.a (e.coord nd).1 (e.coord nd).2).2 > e.R * sin e.a
      · rw [if_neg c1, if_neg c1, if_pos c2, if_pos c2]; rfl
      · rw [if_neg c1, if_neg c1, if_neg c2, if_neg c2]; exact h.2.1

/-- the test `dist <= h*np.sqrt(2)` -/
def Near (e : Env) (nd : Node) (sid : Fin 3) : Prop := segDist e nd sid ≤ e.AD / e.N * √2

theorem placeStep_ok (e : Env) (nd : Node) (st : AllGamma × Bool) (sid : Fin 3) [Decidable (Near e nd sid)] :
    placeStep e (fun _ => none) nd st sid =
      .ok (if Near e nd sid then (Function.update st.1 sid (st.1 sid ++ [nd]), true) else st) := by
  have h := place_dist e nd sid
  unfold placeStep
  rcases he : getEtype e (fun _ => none) sid nd with er | et
  · rw [he] at h; simp at h
  · rw [he, ok_bind] at h
    simp only [ok_bind, h, pure_eq_ok]
    by_cases hn : Near e nd sid
    · rw [if_pos hn, if_pos (show segDist e nd sid ≤ _ from hn)]
    · rw [if_neg hn, if_neg (show ¬ segDist e nd sid ≤ _ from hn)]

open Classical in
theorem placeNode_ok (e : Env) (g : AllGamma) (nd : Node) :
    placeNode e (fun _ => none) g nd =
      if ∃ sid, Near e nd sid then .ok (fun sid => if Near e nd sid then g sid ++ [nd] else g sid)
      else .error .assertionError := by
  unfold placeNode
  simp only [List.foldlM_cons, List.foldlM_nil, placeStep_ok, ok_bind, pure_eq_ok, throw_eq_error]
  have hex : (∃ sid, Near e nd sid) ↔ Near e nd 0 ∨ Near e nd 1 ∨ Near e nd 2 := by
    constructor
    · rintro ⟨sid, h⟩
      fin_cases sid
      · exact Or.inl h
      · exact Or.inr (Or.inl h)
      · exact Or.inr (Or.inr h)
    · rintro (h | h | h)
      exacts [⟨0, h⟩, ⟨1, h⟩, ⟨2, h⟩]
  by_cases hh : ∃ sid, Near e nd sid
  · rw [if_pos hh]
    have h3 := hex.1 hh
    by_cases h0 : Near e nd 0 <;> by_cases h1 : Near e nd 1 <;> by_cases h2 : Near e nd 2 <;>
      simp only [h0, h1, h2, or_self] at h3 <;>
      simp only [h0, h1, h2, if_true, if_false, Except.ok.injEq] <;> funext sid <;>
      fin_cases sid <;> simp [h0, h1, h2, Function.update]
  · rw [if_neg hh]
    have h0 : ¬ Near e nd 0 := fun h => hh ⟨0, h⟩
    have h1 : ¬ Near e nd 1 := fun h => hh ⟨1, h⟩
    have h2 : ¬ Near e nd 2 := fun h => hh ⟨2, h⟩
    simp [h0, h1, h2]

open Classical in
theorem placeAll (e : Env) (l : List Node) (g : AllGamma) :
    l.foldlM (placeNode e fun _ => none) g =
      if ∀ nd ∈ l, ∃ sid, Near e nd sid then .ok (fun sid => g sid ++ l.filter fun nd => decide (Near e nd sid))
      else (.error .assertionError : Py AllGamma) := by
  induction l generalizing g with
  | nil => simp
  | cons x l ih =>
    rw [List.foldlM_cons, placeNode_ok]
    by_cases hx : ∃ sid, Near e x sid
    · rw [if_pos hx, ok_bind, ih]
      by_cases hl : ∀ nd ∈ l, ∃ sid, Near e nd sid
      · have hc : ∀ nd ∈ x :: l, ∃ sid, Near e nd sid := by
          intro nd hnd; rcases List.mem_cons.1 hnd with rfl | h
          · exact hx
          · exact hl _ h
        rw [if_pos hl, if_pos hc]
        congr 1
        funext sid
        by_cases hs : Near e x sid
        · rw [if_pos hs, List.filter_cons_of_pos (by simpa using hs)]; simp
        · rw [if_neg hs, List.filter_cons_of_neg (by simpa using hs)]
      · rw [if_neg hl, if_neg]
        intro h; exact hl fun nd hnd => h nd (List.mem_cons_of_mem _ hnd)
    · rw [if_neg hx, error_bind, if_neg]
      intro h; exact hx (h x (List.mem_cons_self ..))

open Classical in
theorem psConstructGrids_eq (iter : Iter) (e : Env) (order : ℕ) :
    let g := constructGrids iter e.N order e.interior
    let ns := nSets iter order g
    let ug := iter 3 (ns.1 ∩ ns.2)
    psConstructGrids iter e order =
      if ∀ nd ∈ ug, ∃ sid, Near e nd sid then
        .ok { g with Nplus := ns.1, Nminus := ns.2, unionGamma := ug,
                     allGamma := fun sid => ug.filter fun nd => decide (Near e nd sid) }
      else .error .assertionError := by
  intro g ns ug
  unfold psConstructGrids
  simp only
  rw [placeAll]
  by_cases h : ∀ nd ∈ ug, ∃ sid, Near e nd sid
  · rw [if_pos h, if_pos h]; simp [g, ns, ug]
  · rw [if_neg h, if_neg h]; rfl

theorem dformula_eq (x0 y0 x y : ℝ) : dformula x0 y0 x y = dist2 (x, y) (x0, y0) := by
  unfold dformula dist2; congr 1; ring

/-- segment 1: the computed distance is the distance -/
theorem segDist_one (e : Env) (rb : ℝ → ℝ) (hR : 0 ≤ e.R) (nd : Node) :
    IsDistTo (e.coord nd) (Segment e.a e.R rb 1) (segDist e nd 1) := by
  have h := seg1_dist e.a e.R rb hR (e.coord nd).1 (e.coord nd).2
  unfold segDist
  simp only [dformula_eq]
  exact h

/-- segment 2: the computed distance is the distance -/
theorem segDist_two (e : Env) (rb : ℝ → ℝ) (hR : 0 ≤ e.R) (ha : 0 < e.a) (haπ : e.a < π) (nd : Node) :
    IsDistTo (e.coord nd) (Segment e.a e.R rb 2) (segDist e nd 2) := by
  have hs := sin_pos_of_pos_of_lt_pi ha haπ
  have h := seg2_dist (a := e.a) rb hR (e.coord nd).1 (e.coord nd).2
  set x := (e.coord nd).1 with hx
  set y := (e.coord nd).2 with hy
  have hd : distToRadius e.a x y = |x * sin e.a - y * cos e.a| := by
    obtain ⟨-, -, -, -, h5, -⟩ := C08_radius_point e.a x y ha haπ
    rw [← h5]; unfold signedDistToRadius
    simp only
    have : 0 ≤ distToRadius e.a x y := Real.sqrt_nonneg _
    split
    · rw [abs_neg, abs_of_nonneg this]
    · rw [abs_of_nonneg this]
  have c1 : (getRadiusPoint e.a x y).2 < 0 ↔ x * cos e.a + y * sin e.a < 0 := by
    rw [getRadiusPoint_eq _ _ _ ha haπ]; simp only [polarPoint]
    constructor
    · intro h; by_contra hc; have := mul_nonneg (not_lt.1 hc) hs.le; linarith
    · intro h; exact mul_neg_of_neg_of_pos h hs
  have c2 : (getRadiusPoint e.a x y).2 > e.R * sin e.a ↔ x * cos e.a + y * sin e.a > e.R := by
    rw [getRadiusPoint_eq _ _ _ ha haπ]; simp only [polarPoint]
    exact mul_lt_mul_iff_left₀ hs
  unfold segDist
  simp only [dformula_eq, ← hx, ← hy, hd]
  by_cases h1 : x * cos e.a + y * sin e.a < 0
  · rw [if_pos h1] at h; rw [if_pos (c1.2 h1)]; exact h
  · rw [if_neg h1] at h; rw [if_neg (mt c1.1 h1)]
    by_cases h2 : x * cos e.a + y * sin e.a > e.R
    · rw [if_pos h2] at h; rw [if_pos (c2.2 h2)]; exact h
    · rw [if_neg h2] at h; rw [if_neg (mt c2.1 h2)]; exact h

theorem env_polar (e : Env) (ha : 0 < e.a) (ha4 : e.a ≤ 4 * π) (nd : Node) :
    polarPoint (e.polar nd).1 (e.polar nd).2 = e.coord nd ∧ 0 ≤ (e.polar nd).1 ∧
    e.a / 2 ≤ (e.polar nd).2 ∧ (e.polar nd).2 < 2 * π + e.a / 2 :=
  C02_get_polar e.AD e.N e.a ha ha4 nd.1 nd.2

/-- segment 0, any boundary curve: the computed distance is the distance to some point of the segment -/
theorem segDist_zero_point {b : Brentq} (hb : BrentqSpec b) {N : ℕ} {AD a R : ℝ} {r : ℝ → ℝ}
    (hr : ContDiff ℝ 1 r) (hp : ∀ t, 0 < r t ^ 2 + deriv r t ^ 2) (ha : 0 < a) (ha2 : a ≤ 2 * π) (hra : r a = R)
    (hr2 : r (2 * π) = R) (nd : Node) :
    ∃ q ∈ Segment a R r 0,
      segDist (mkEnv b N AD a R r) nd 0 = dist2 ((mkEnv b N AD a R r).coord nd) q := by
  set e := mkEnv b N AD a R r with he
  have hpi := pi_pos
  obtain ⟨p1, p2, p3, p4⟩ := env_polar e ha (by show a ≤ 4 * π; linarith) nd
  have q1 : ((R, 0) : ℝ × ℝ) ∈ Segment a R r 0 := ⟨2 * π, ha2, le_rfl, by simp [polarPoint, hr2]⟩
  have q2 : ((R * cos a, R * sin a) : ℝ × ℝ) ∈ Segment a R r 0 := ⟨a, le_rfl, ha2, by simp [polarPoint, hra]⟩
  unfold segDist
  simp only [dformula_eq]
  rcases h : e.bcoord (e.polar nd).1 (e.polar nd).2 with _ | ⟨n, th⟩
  · exact ⟨_, q1, rfl⟩
  · simp only
    split_ifs with c1 c2
    · exact ⟨_, q1, rfl⟩
    · exact ⟨_, q2, rfl⟩
    · obtain ⟨-, h2, -⟩ := C46_reconstruct hb hr hp (a := a) p3 p4.le h
      exact ⟨_, ⟨th, not_lt.1 c2, not_lt.1 c1, rfl⟩, by rw [h2, p1]⟩

/-- segment 0, circular arc: the computed distance is the distance -/
theorem segDist_zero_arc {b : Brentq} (hb : BrentqSpec b) {N : ℕ} {AD a R : ℝ} (ha : 0 < a) (haπ : a < π)
    (hR : 0 < R) (nd : Node) :
    IsDistTo ((mkEnv b N AD a R (arcR R)).coord nd) (Segment a R (arcR R) 0)
      (segDist (mkEnv b N AD a R (arcR R)) nd 0) := by
  set e := mkEnv b N AD a R (arcR R) with he
  have hpi := pi_pos
  obtain ⟨p1, p2, p3, p4⟩ := env_polar e ha (by show a ≤ 4 * π; linarith) nd
  rcases p2.lt_or_eq with hpos | hz
  · have h := arc_dist haπ hR p2 p3 p4.le
    have hb' : e.bcoord (e.polar nd).1 (e.polar nd).2 = some ((e.polar nd).1 - R, (e.polar nd).2) :=
      C47_arc hb hR hpos p3 p4.le
    unfold segDist
    simp only [dformula_eq, hb']
    rw [p1] at h
    exact h
  · -- the origin is at distance `R` from every point of the arc
    have hc : e.coord nd = (0, 0) := by rw [← p1, ← hz]; simp [polarPoint]
    have hall : ∀ q ∈ Segment a R (arcR R) 0, dist2 (e.coord nd) q = R := by
      rintro q ⟨t, -, -, rfl⟩
      rw [hc]; unfold dist2 polarPoint arcR
      simp only
      rw [show (0 - R * cos t) ^ 2 + (0 - R * sin t) ^ 2 = R ^ 2 by
        linear_combination R ^ 2 * sin_sq_add_cos_sq t]
      exact Real.sqrt_sq hR.le
    obtain ⟨q, hq, hd⟩ := segDist_zero_point (N := N) (AD := AD) hb (r := arcR R) contDiff_const (fun _ => regular_of_pos (r := arcR R) hR) ha
      (by linarith) rfl rfl nd
    refine ⟨⟨q, hq, hd⟩, ?_⟩
    intro q' hq'
    rw [hall q' hq']
    have := hall q hq
    exact (hd.trans this).le

/-- neighbours in the stencil are at distance at most `h√2` -/
theorem reach_dist {N : ℕ} {AD : ℝ} (hAD : 0 ≤ AD) {order : ℕ} {p q : Node} (h : Reach order p q) :
    dist2 (getCoord AD N p.1 p.2) (getCoord AD N q.1 q.2) ≤ AD / N * √2 := by
  obtain ⟨h1, h2, -⟩ := h
  have hh : 0 ≤ AD / N := by positivity
  unfold dist2 getCoord
  simp only
  have e1 : AD * (p.1 / N - 1 / 2) - AD * (q.1 / N - 1 / 2) = AD / N * (p.1 - q.1) := by ring
  have e2 : AD * (p.2 / N - 1 / 2) - AD * (q.2 / N - 1 / 2) = AD / N * (p.2 - q.2) := by ring
  rw [e1, e2, show (AD / N * ((p.1 : ℝ) - q.1)) ^ 2 + (AD / N * ((p.2 : ℝ) - q.2)) ^ 2
    = (AD / N) ^ 2 * (((p.1 : ℝ) - q.1) ^ 2 + ((p.2 : ℝ) - q.2) ^ 2) by ring]
  rw [Real.sqrt_mul (sq_nonneg _), Real.sqrt_sq hh]
  apply mul_le_mul_of_nonneg_left _ hh
  apply Real.sqrt_le_sqrt
  have g1 : ((p.1 : ℝ) - q.1) ^ 2 ≤ 1 := by
    have : |((q.1 - p.1 : ℤ) : ℝ)| ≤ 1 := by exact_mod_cast h1
    push_cast at this
    rw [abs_sub_comm] at this
    have := (sq_le_one_iff_abs_le_one _).2 this
    exact this
  have g2 : ((p.2 : ℝ) - q.2) ^ 2 ≤ 1 := by
    have : |((q.2 - p.2 : ℤ) : ℝ)| ≤ 1 := by exact_mod_cast h2
    push_cast at this
    rw [abs_sub_comm] at this
    have := (sq_le_one_iff_abs_le_one _).2 this
    exact this
  linarith

theorem dist2_comm (p q : ℝ × ℝ) : dist2 p q = dist2 q p := by unfold dist2; congr 1; ring

/-- the operator reads exactly within its stencil -/
theorem Lh_congr_reach {order : ℕ} {h k : ℝ} {u u' : ℤ → ℤ → ℂ} {i j : ℤ}
    (H : ∀ q : ℤ × ℤ, Reach order (i, j) q → u q.1 q.2 = u' q.1 q.2) :
    Lh order h k u i j = Lh order h k u' i j := by
  have H5 : ∀ p q : ℤ, |p - i| ≤ 1 → |q - j| ≤ 1 → (p = i ∨ q = j) → u p q = u' p q :=
    fun p q h1 h2 h3 => H (p, q) ⟨h1, h2, fun _ => h3⟩
  have c0 := H5 i j (by simp) (by simp) (by simp)
  have c1 := H5 (i+1) j (by simp) (by simp) (by simp)
  have c2 := H5 (i-1) j (by simp) (by simp) (by simp)
  have c3 := H5 i (j+1) (by simp) (by simp) (by simp)
  have c4 := H5 i (j-1) (by simp) (by simp) (by simp)
  unfold Lh
  split_ifs with ho
  · have H9 : ∀ p q : ℤ, |p - i| ≤ 1 → |q - j| ≤ 1 → u p q = u' p q :=
      fun p q h1 h2 => H (p, q) ⟨h1, h2, fun h => by omega⟩
    unfold L4 dxx dyy
    rw [c0, c1, c2, c3, c4, H9 (i+1) (j+1) (by simp) (by simp), H9 (i+1) (j-1) (by simp) (by simp),
      H9 (i-1) (j+1) (by simp) (by simp), H9 (i-1) (j-1) (by simp) (by simp)]
  · unfold L2 dxx dyy
    rw [c0, c1, c2, c3, c4]

theorem near_ray_aux {S C u w z : ℝ} (hsc : S ^ 2 + C ^ 2 = 1) (hS : 0 ≤ S) (hw : 0 ≤ w) (hz : 0 ≤ z) :
    (u ^ 2 + w ^ 2) * S ^ 2 ≤ u ^ 2 + w ^ 2 - 2 * z * (u * C - w * S) + z ^ 2 := by
  rcases le_or_gt (u * C - w * S) 0 with h | h
  · have h1 : z * (u * C - w * S) ≤ 0 := mul_nonpos_of_nonneg_of_nonpos hz h
    have h2 : S ^ 2 ≤ 1 := by linarith [sq_nonneg C]
    have h3 : (u ^ 2 + w ^ 2) * S ^ 2 ≤ (u ^ 2 + w ^ 2) * 1 := mul_le_mul_of_nonneg_left h2 (by positivity)
    linarith [sq_nonneg z]
  · have e : u ^ 2 + w ^ 2 - 2 * z * (u * C - w * S) + z ^ 2
        = (z - (u * C - w * S)) ^ 2 + (u * S + w * C) ^ 2 := by
      linear_combination (-(u ^ 2 + w ^ 2)) * hsc
    have e2 : (u * S + w * C) ^ 2 - (u ^ 2 + w ^ 2) * S ^ 2 =
        2 * w * S * (u * C - w * S) + w ^ 2 := by linear_combination w ^ 2 * hsc
    have : 0 ≤ 2 * w * S * (u * C - w * S) := by positivity
    linarith [sq_nonneg (z - (u * C - w * S)), sq_nonneg w]

/-- a point close to both wedge sides is close to the corner -/
theorem near_two_rays {a : ℝ} (ha : 0 < a) (haπ : a < π) (x y t s δ : ℝ) (ht : 0 ≤ t) (hs : 0 ≤ s)
    (h1 : dist2 (x, y) (t, 0) ≤ δ) (h2 : dist2 (x, y) (polarPoint s a) ≤ δ) :
    √(x ^ 2 + y ^ 2) * sin (a / 2) ≤ δ := by
  have hsn : 0 < sin (a / 2) := sin_pos_of_pos_of_lt_pi (by linarith) (by linarith)
  have hδ : 0 ≤ δ := (Real.sqrt_nonneg _).trans h1
  set S := sin (a / 2) with hS
  set C := cos (a / 2) with hC
  have hsc : S ^ 2 + C ^ 2 = 1 := sin_sq_add_cos_sq (a / 2)
  have ca : cos a = C ^ 2 - S ^ 2 := by
    have : a = 2 * (a / 2) := by ring
    rw [this, cos_two_mul, ← hC]; linarith
  have sa : sin a = 2 * S * C := by
    have : a = 2 * (a / 2) := by ring
    rw [this, sin_two_mul, ← hC, ← hS]
  have k1 : (x - t) ^ 2 + (y - 0) ^ 2 ≤ δ ^ 2 := (Real.sqrt_le_left hδ).1 h1
  have k2 : (x - s * cos a) ^ 2 + (y - s * sin a) ^ 2 ≤ δ ^ 2 := (Real.sqrt_le_left hδ).1 h2
  have goal2 : (x ^ 2 + y ^ 2) * S ^ 2 ≤ δ ^ 2 := by
    -- coordinates along and across the bisector
    obtain ⟨u, hu⟩ : ∃ u, u = x * C + y * S := ⟨_, rfl⟩
    obtain ⟨v, hv⟩ : ∃ v, v = y * C - x * S := ⟨_, rfl⟩
    have ex : x = u * C - v * S := by rw [hu, hv]; linear_combination (-x) * hsc
    have ey : y = u * S + v * C := by rw [hu, hv]; linear_combination (-y) * hsc
    have er : x ^ 2 + y ^ 2 = u ^ 2 + v ^ 2 := by rw [ex, ey]; linear_combination (u ^ 2 + v ^ 2) * hsc
    have hray := fun w z hw hz => near_ray_aux (u := u) (w := w) (z := z) hsc hsn.le hw hz
    rw [er]
    rcases le_total 0 v with hv0 | hv0
    · refine (hray v t hv0 ht).trans (le_trans (le_of_eq ?_) k1)
      rw [ex, ey]; linear_combination (-(u ^ 2 + v ^ 2)) * hsc
    · have := hray (-v) s (by linarith) hs
      rw [show (-v) ^ 2 = v ^ 2 by ring] at this
      refine this.trans (le_trans (le_of_eq ?_) k2)
      have hcs : cos a ^ 2 + sin a ^ 2 = 1 := cos_sq_add_sin_sq a
      have e3 : x * cos a + y * sin a = u * C + v * S := by
        rw [ca, sa, ex, ey]; linear_combination (u * C + v * S) * hsc
      linear_combination (-1 : ℝ) * er + (2 * s) * e3 - s ^ 2 * hcs
  have h0 : 0 ≤ √(x ^ 2 + y ^ 2) * S := by positivity
  have : (√(x ^ 2 + y ^ 2) * S) ^ 2 ≤ δ ^ 2 := by
    rw [mul_pow, Real.sq_sqrt (by positivity)]; exact goal2
  exact (abs_le_of_sq_le_sq' this hδ).2

end Pot
