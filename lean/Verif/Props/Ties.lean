import Verif.Proofs.RoundedTie
import Verif.Proofs.RoundedPlace
import Verif.Proofs.CauchyData
import Verif.Props.Rounding
import Verif.Props.Problem

/-! # Property C97: the test `dist <= h*np.sqrt(2)` of the grid construction is a tie for nodes along the side `θ = a` -/

namespace Pot
open Real Spec

/-! ## Exact arithmetic -/

/-- the library with exact results -/
noncomputable def exactLib : FlLib := ⟨⟨id, hypot, atan2⟩, Real.tan, Real.sin, Real.cos, fun x => x ^ 2⟩

/-- with exact arithmetic the rounded grid construction is that of the model -/
theorem C97_exact_arithmetic (iter : Iter) (e : Env) (order : ℕ) :
    psConstructGridsF iter ⟨exactLib, e.N, e.AD, e.a, e.R, e.evalR, e.bcoord⟩ order = psConstructGrids iter e order := by
  classical
  have hn : ∀ nd sid, NearF ⟨exactLib, e.N, e.AD, e.a, e.R, e.evalR, e.bcoord⟩ nd sid ↔ Near e nd sid := by
    intro nd sid
    fin_cases sid <;> exact Iff.rfl
  rw [psConstructGridsF_eq, psConstructGrids_eq]
  simp only [hn]
  rfl

section exact
variable {N : ℕ} {j : ℤ} {r : ℝ → ℝ}

theorem node_pos (hN : 0 < N) (k : ℤ) : probAD * ((k : ℝ) / N - 1 / 2) = π / N * (2 * k - N) := by
  have : (0 : ℝ) < N := by exact_mod_cast hN
  unfold probAD
  field_simp

/-- In exact arithmetic the node `(j+2, j)` next to the side `θ = a` is at distance exactly `h√2` from that side, and (if it is not
close to the tip or to the outer curve) farther than that from the other two segments: the test that places it holds with equality,
and only for one segment. -/
theorem C97_tie (hN : 0 < N) (hj : N + 3 ≤ 2 * j) (htame : ∀ t, π / 4 ≤ t → t ≤ 2 * π → 1.8 ≤ r t)
    (hρ : ‖(⟨(getCoord probAD N (j + 2 : ℤ) j).1, (getCoord probAD N (j + 2 : ℤ) j).2⟩ : ℂ)‖ + probAD / N * √2 < 1.8) :
    IsDistTo (getCoord probAD N (j + 2 : ℤ) j) (Segment probA probR r 2) (probAD / N * √2) ∧
    (∀ q ∈ Segment probA probR r 0, probAD / N * √2 < dist2 (getCoord probAD N (j + 2 : ℤ) j) q) ∧
    (∀ q ∈ Segment probA probR r 1, probAD / N * √2 < dist2 (getCoord probAD N (j + 2 : ℤ) j) q) := by
  have hNr : (0 : ℝ) < N := by exact_mod_cast hN
  have hpi := pi_pos
  have hjr : (N : ℝ) + 3 ≤ 2 * j := by exact_mod_cast hj
  have e1 : getCoord probAD N (j + 2 : ℤ) j = (π / N * (2 * j + 4 - N), π / N * (2 * j - N)) := by
    show (probAD * (((j + 2 : ℤ) : ℝ) / N - 1 / 2), probAD * ((j : ℝ) / N - 1 / 2)) = _
    rw [node_pos hN, node_pos hN]; push_cast; ring_nf
  rw [e1] at hρ ⊢
  have e2 : probAD / N * √2 = π / N * (2 * √2) := by unfold probAD; ring
  rw [e2] at hρ ⊢
  rw [norm_mk] at hρ
  dsimp only at hρ
  obtain ⟨s, hs⟩ : ∃ s, s = π / N := ⟨_, rfl⟩
  rw [← hs] at hρ ⊢
  have s0 : 0 < s := by rw [hs]; positivity
  obtain ⟨c, hc⟩ : ∃ c : ℝ, c = 2 * j - N := ⟨_, rfl⟩
  rw [show (2 * (j : ℝ) + 4 - N) = c + 4 by rw [hc]; ring, ← hc] at hρ ⊢
  have c0 : 3 ≤ c := by rw [hc]; linarith
  have h2 : √2 ^ 2 = 2 := sq_sqrt (by norm_num)
  have h2p : 0 < √2 := by positivity
  have h2u : √2 < 1.4143 := by rw [sqrt_lt' (by norm_num)]; norm_num
  set ρ := √((s * (c + 4)) ^ 2 + (s * c) ^ 2) with hρd
  have hρ2 : ρ ^ 2 = (s * (c + 4)) ^ 2 + (s * c) ^ 2 := sq_sqrt (by positivity)
  have hρ0 : 0 ≤ ρ := sqrt_nonneg _
  refine ⟨⟨⟨polarPoint (s * (c + 2) * √2) probA, ⟨s * (c + 2) * √2, by positivity, ?_, rfl⟩, ?_⟩, ?_⟩, ?_, ?_⟩
  · have : (s * (c + 2) * √2) ^ 2 ≤ ρ ^ 2 := by rw [hρ2]; nlinarith [mul_pos s0 s0]
    have := abs_le_of_sq_le_sq this hρ0
    have h3 := (abs_le.1 this).2
    have : 0 < s * (2 * √2) := by positivity
    unfold probR; linarith
  · unfold dist2 polarPoint probA
    dsimp only
    rw [cos_pi_div_four, sin_pi_div_four]
    have : s * (c + 2) * √2 * (√2 / 2) = s * (c + 2) := by
      rw [show s * (c + 2) * √2 * (√2 / 2) = s * (c + 2) * (√2 ^ 2) / 2 by ring, h2]; ring
    rw [this, show (s * (c + 4) - s * (c + 2)) ^ 2 + (s * c - s * (c + 2)) ^ 2 = (s * (2 * √2)) ^ 2 by
      rw [mul_pow s (2 * √2), mul_pow 2 √2, h2]; ring]
    rw [sqrt_sq (by positivity)]
  · rintro q ⟨t, -, -, rfl⟩
    unfold dist2 polarPoint probA
    dsimp only
    rw [cos_pi_div_four, sin_pi_div_four]
    refine le_sqrt_of_sq_le ?_
    have : (s * (2 * √2)) ^ 2 = 8 * s ^ 2 := by rw [mul_pow, mul_pow, h2]; ring
    rw [this]
    nlinarith [sq_nonneg (s * (c + 4) + s * c - 2 * (t * (√2 / 2)))]
  · rintro q ⟨t, t1, t2, rfl⟩
    have hr := htame t t1 t2
    have hn : ‖(⟨s * (c + 4), s * c⟩ : ℂ)‖ = ρ := norm_mk _ _
    have hd : dist2 (s * (c + 4), s * c) (polarPoint (r t) t)
        = ‖(⟨s * (c + 4), s * c⟩ : ℂ) - ⟨r t * cos t, r t * sin t⟩‖ := by
      rw [show (⟨s * (c + 4), s * c⟩ : ℂ) - ⟨r t * cos t, r t * sin t⟩ = ⟨s * (c + 4) - r t * cos t, s * c - r t * sin t⟩ from rfl,
        norm_mk]
      rfl
    have hq : ‖(⟨r t * cos t, r t * sin t⟩ : ℂ)‖ = r t := by
      rw [norm_mk, show (r t * cos t) ^ 2 + (r t * sin t) ^ 2 = r t ^ 2 by linear_combination r t ^ 2 * sin_sq_add_cos_sq t]
      exact sqrt_sq (by linarith)
    have := norm_sub_norm_le (⟨r t * cos t, r t * sin t⟩ : ℂ) ⟨s * (c + 4), s * c⟩
    rw [hd, norm_sub_rev]
    linarith
  · rintro q ⟨t, -, -, rfl⟩
    refine lt_of_lt_of_le ?_ (abs_le_sqrt (x := s * c) ?_)
    · rw [abs_of_pos (by positivity)]
      exact mul_lt_mul_of_pos_left (by linarith) s0
    · dsimp only; rw [sub_zero]; linarith [sq_nonneg (s * (c + 4) - t)]

/-- The node belongs to the discrete boundary of the fourth-order scheme, so the construction depends on that equality: it is in the list
of the side `θ = a` and in no other, on every shipped boundary. -/
theorem C97_placed {iter : Iter} (hit : IsIter iter) {b : Brentq} (hb : BrentqSpec b) (hN : 16 ≤ N) (hj : N + 3 ≤ 2 * j)
    (hjN : j + 2 ≤ N - 1) {name : String} (h : chooseBoundary name = .ok r)
    (hρ : ‖(⟨(getCoord probAD N (j + 2 : ℤ) j).1, (getCoord probAD N (j + 2 : ℤ) j).2⟩ : ℂ)‖ + probAD / N * √2 < 1.8) :
    ∃ G, psConstructGrids iter (mkEnv b N probAD probA probR r) 4 = .ok G ∧
      (j + 2, j) ∈ G.unionGamma ∧ (j + 2, j) ∈ G.allGamma 2 ∧ (j + 2, j) ∉ G.allGamma 0 ∧ (j + 2, j) ∉ G.allGamma 1 := by
  have hN0 : 0 < N := by omega
  have tame := chooseBoundary_tame h
  have hpi := pi_pos
  have tie := C97_tie (r := r) hN0 hj (fun t t1 t2 => tame.lo t (by linarith) (by linarith)) hρ
  obtain ⟨G, hG, hd⟩ := C12_shipped hit hb hN 4 h
  obtain ⟨g1, g2, g3, g4, g5⟩ := psGrids_sets hit hG
  have hmem : (j + 2, j) ∈ G.unionGamma := by
    have part := C09_partition hit N 4 (mkEnv b N probAD probA probR r).interior
    have gM : G.Mplus = (constructGrids iter N 4 (mkEnv b N probAD probA probR r).interior).Mplus := by rw [g1]; rfl
    have gm : G.Mminus = (constructGrids iter N 4 (mkEnv b N probAD probA probR r).interior).Mminus := by rw [g1]; rfl
    have hNr : (0 : ℝ) < N := by exact_mod_cast hN0
    have hjr : (N : ℝ) + 3 ≤ 2 * j := by exact_mod_cast hj
    have hs0 : 0 < π / N := by positivity
    have cxy : ∀ k l : ℤ, getCoord probAD N k l = (π / N * (2 * k - N), π / N * (2 * l - N)) := fun k l => by
      show (probAD * ((k : ℝ) / N - 1 / 2), probAD * ((l : ℝ) / N - 1 / 2)) = _
      rw [node_pos hN0, node_pos hN0]
    have in1 : (mkEnv b N probAD probA probR r).interior (j + 1, j + 1) := by
      have w : inWedge N (j + 1) (j + 1) := by
        rw [inWedge_iff hN0 (by omega) (by omega)]
        intro c; exact lt_irrefl _ c.2
      refine ⟨?_, w⟩
      have l := tame.lo (getPolar probAD N probA (j + 1 : ℤ) (j + 1 : ℤ)).2 (by have := w.1; unfold probA at this ⊢; linarith)
        (by have := w.2; linarith)
      refine le_trans ?_ l
      have e1 : (getPolar probAD N probA (j + 1 : ℤ) (j + 1 : ℤ)).1
          = √((getCoord probAD N (j + 1 : ℤ) (j + 1 : ℤ)).1 ^ 2 + (getCoord probAD N (j + 1 : ℤ) (j + 1 : ℤ)).2 ^ 2) := by
        rw [getPolar_eq]
        dsimp only
        split_ifs <;> exact cartToPolar_fst _ _
      show (getPolar probAD N probA (j + 1 : ℤ) (j + 1 : ℤ)).1 ≤ _
      rw [e1, cxy, sqrt_le_left (by norm_num)]
      rw [norm_mk, cxy] at hρ
      dsimp only at hρ ⊢
      have hp : 0 < probAD / N * √2 := by unfold probAD; positivity
      have h3 : √((π / N * (2 * ((j + 2 : ℤ) : ℝ) - N)) ^ 2 + (π / N * (2 * (j : ℝ) - N)) ^ 2) ≤ 1.8 := by linarith
      rw [sqrt_le_left (by norm_num)] at h3
      push_cast at h3 ⊢
      nlinarith [mul_pos hs0 hs0]
    have out : ¬ (mkEnv b N probAD probA probR r).interior (j + 2, j) := by
      intro q
      have w : inWedge N (j + 2) j := q.2
      rw [inWedge_iff hN0 (by omega) (by omega), cxy] at w
      refine w ⟨mul_pos hs0 (by linarith), mul_lt_mul_of_pos_left ?_ hs0⟩
      push_cast; linarith
    have hM1 : (j + 1, j + 1) ∈ (constructGrids iter N 4 (mkEnv b N probAD probA probR r).interior).Mplus := by
      rw [part.2.2.2.2.1]
      exact ⟨(part.2.1 _ _).2 ⟨by omega, by omega, by omega, by omega⟩, in1⟩
    have hM2 : (j + 2, j) ∈ (constructGrids iter N 4 (mkEnv b N probAD probA probR r).interior).Mminus := by
      have h0 : (j + 2, j) ∈ (constructGrids iter N 4 (mkEnv b N probAD probA probR r).interior).M0 :=
        (part.2.1 _ _).2 ⟨by omega, by omega, by omega, by omega⟩
      rw [← part.2.2.2.1, Finset.mem_union] at h0
      refine h0.resolve_left fun q => out ?_
      exact ((part.2.2.2.2.1 _).1 q).2
    rw [g5, g2, g3, gM, gm]
    refine ⟨⟨_, hM1, ?_, ?_, by norm_num⟩, _, hM2, by simp, by simp, by norm_num⟩
    · show |j + 2 - (j + 1)| ≤ 1
      rw [show j + 2 - (j + 1) = 1 by ring]; norm_num
    · show |j - (j + 1)| ≤ 1
      rw [show j - (j + 1) = -1 by ring]; norm_num
  refine ⟨G, hG, hmem, ?_, ?_, ?_⟩
  · obtain ⟨d, d1, d2⟩ := hd 2 _ hmem
    obtain ⟨q, hq, hqd⟩ := tie.1.1
    rw [d2]
    rw [hqd]; exact d1.2 q hq
  · obtain ⟨d, d1, d2⟩ := hd 0 _ hmem
    obtain ⟨q, hq, hqd⟩ := d1.1
    rw [d2, not_le, hqd]; exact tie.2.1 q hq
  · obtain ⟨d, d1, d2⟩ := hd 1 _ hmem
    obtain ⟨q, hq, hqd⟩ := d1.1
    rw [d2, not_le, hqd]; exact tie.2.2 q hq

/-- in exact arithmetic, the first boundary coordinate of a point at most `1.6` from the tip is at least `0.2` in absolute value; the
angle may lie a little outside the interval of the angles of nodes -/
theorem C97_far {b : Brentq} (hb : BrentqSpec b) {name : String} (h : chooseBoundary name = .ok r) {ρ θ : ℝ} (h0 : 0 ≤ ρ)
    (h1 : ρ ≤ 1.6) (hθ : 0.3 ≤ θ) (hθ2 : θ ≤ 6.7) {c : ℝ × ℝ} (hc : getBoundaryCoord b probA r ρ θ = some c) :
    1 / 5 ≤ |c.1| := by
  have tame := chooseBoundary_tame h
  have hpi := pi_pos
  unfold getBoundaryCoord at hc
  dsimp only at hc
  split at hc
  · cases hc
  · rename_i th0 heq
    have sm : ContDiff ℝ 1 r := chooseBoundary_smooth h 1
    have p1 := pi_gt_d2
    have p2 := pi_lt_d2
    have lo : probA / 2 ≤ searchLo probA θ ∧ searchHi probA θ ≤ 2 * π + probA / 2 ∧ searchLo probA θ ≤ searchHi probA θ := by
      unfold searchLo searchHi probA
      dsimp only
      refine ⟨?_, ?_, ?_⟩ <;> split_ifs <;> linarith
    obtain ⟨b1, b2, -⟩ := hb.root _ _ _ _ lo.2.2 (evalDistDeriv_continuous sm _ _).continuousOn heq
    have hth : 1.8 ≤ r th0 := tame.lo th0 (lo.1.trans b1) (b2.trans lo.2.1)
    have hn : 1 / 5 ≤ √((ρ * cos θ - r th0 * cos th0) ^ 2 + (ρ * sin θ - r th0 * sin th0) ^ 2) := by
      refine le_sqrt_of_sq_le ?_
      have e : (ρ * cos θ - r th0 * cos th0) ^ 2 + (ρ * sin θ - r th0 * sin th0) ^ 2
          = ρ ^ 2 + r th0 ^ 2 - 2 * ρ * r th0 * cos (θ - th0) := by
        rw [cos_sub]; linear_combination ρ ^ 2 * sin_sq_add_cos_sq θ + r th0 ^ 2 * sin_sq_add_cos_sq th0
      rw [e]
      have := cos_le_one (θ - th0)
      have h3 : ρ * r th0 * cos (θ - th0) ≤ ρ * r th0 := mul_le_of_le_one_right (mul_nonneg h0 (by linarith)) this
      nlinarith [sq_nonneg (r th0 - ρ)]
    have hc' := Option.some.inj hc
    rw [← hc']
    dsimp only
    split_ifs
    · rw [abs_neg]; exact hn.trans (le_abs_self _)
    · exact hn.trans (le_abs_self _)

end exact

/-! ## Rounded arithmetic -/

/-- The construction succeeds if and only if every node of the discrete boundary passes the test for one of the segments; otherwise it
ends with an AssertionError. -/
theorem C97_outcome (iter : Iter) (e : EnvF) (order : ℕ) :
    let ug := iter 3 ((nSets iter order (constructGrids iter e.N order e.interior)).1 ∩
      (nSets iter order (constructGrids iter e.N order e.interior)).2)
    ((∃ G, psConstructGridsF iter e order = .ok G) ↔
      ∀ nd ∈ ug, ∃ sid d, getDistF e nd sid (getEtypeF e sid nd) = .ok d ∧ d ≤ e.threshold) ∧
    ((∀ G, psConstructGridsF iter e order ≠ .ok G) → psConstructGridsF iter e order = .error .assertionError) := by
  classical
  intro ug
  have hq : (∀ nd ∈ ug, ∃ sid d, getDistF e nd sid (getEtypeF e sid nd) = .ok d ∧ d ≤ e.threshold) ↔
      ∀ nd ∈ ug, ∃ sid, NearF e nd sid := by
    refine forall₂_congr fun nd _ => exists_congr fun sid => ?_
    rw [place_distF]
    exact ⟨fun ⟨d, h1, h2⟩ => by rw [Except.ok.injEq] at h1; subst h1; exact h2, fun q => ⟨_, rfl, q⟩⟩
  rw [hq, psConstructGridsF_eq]
  by_cases hc : ∀ nd ∈ ug, ∃ sid, NearF e nd sid
  · rw [if_pos hc]
    exact ⟨⟨fun _ => hc, fun _ => ⟨_, rfl⟩⟩, fun q => absurd rfl (q _)⟩
  · rw [if_neg hc]
    exact ⟨⟨fun ⟨G, hG⟩ => by simp at hG, fun q => absurd q hc⟩, fun _ => rfl⟩

/-- what is assumed of the arithmetic and the library -/
structure GoodLib97 (F : FlLib) : Prop where
  rnd : RoundsToNearest F.rnd
  libm : Libm F.hypot F.atan2
  diag : DiagExact F.toFl
  sq : SquareAccurate F.sq
  trig : TrigAccurate F.sin F.cos
  tan : TanAccurate F.tan

/-- the attributes for a shipped problem: `R = 2.3`, `AD_len = 2*np.pi`, `a = np.pi/4` -/
noncomputable def shippedF (F : FlLib) (N : ℕ) (evalR : ℝ → ℝ) (bcoord : ℝ → ℝ → Option (ℝ × ℝ)) : EnvF :=
  ⟨F, N, F.AD, F.a, F.rnd probR, evalR, bcoord⟩

/-- no segment is within the threshold of a node with the stated distances -/
theorem not_near {e : EnvF} {nd : Node} (hx0 : 0 ≤ (e.coord nd).1) (hxR : (e.coord nd).1 ≤ e.R) (ht : e.threshold < 1 / 5)
    (far1 : 1 / 4 < dformulaF e.F e.R 0 (e.coord nd).1 (e.coord nd).2)
    (far2 : 1 / 4 < dformulaF e.F (e.F.rnd (e.R * e.F.cos e.a)) (e.F.rnd (e.R * e.F.sin e.a)) (e.coord nd).1 (e.coord nd).2)
    (hbc : ∀ c, e.bcoord (e.polar nd).1 (e.polar nd).2 = some c → 1 / 5 ≤ |c.1|) (hy : e.threshold < (e.coord nd).2)
    (hf0 : 0 ≤ (getRadiusPointF e.F e.a (e.coord nd).1 (e.coord nd).2).2)
    (hf1 : (getRadiusPointF e.F e.a (e.coord nd).1 (e.coord nd).2).2 ≤ e.F.rnd (e.R * e.F.sin e.a))
    (htie : e.threshold < distToRadiusF e.F e.a (e.coord nd).1 (e.coord nd).2) (sid : Fin 3) : ¬ NearF e nd sid := by
  unfold NearF
  rw [not_le]
  have c : sid = 0 ∨ sid = 1 ∨ sid = 2 := by omega
  rcases c with rfl | rfl | rfl
  · unfold segDistF
    dsimp only
    split
    · linarith
    · rename_i c hc
      have := hbc c hc
      split_ifs <;> linarith
  · unfold segDistF
    dsimp only
    rw [if_neg (not_lt.2 hx0), if_neg (not_lt.2 hxR)]
    exact hy.trans_le (le_abs_self _)
  · unfold segDistF
    dsimp only
    rw [if_neg (not_lt.2 hf0), if_neg (not_lt.2 hf1)]
    exact htie

variable {F : FlLib}

theorem angle_F (h : RoundsToNearest F.rnd) (hl : Libm F.hypot F.atan2) {N : ℕ} {i j : ℤ} (hN : 0 < N) (hN2 : N ≤ 2 ^ 40)
    (hi : 0 ≤ i ∧ i ≤ N) (hj : 0 ≤ j ∧ j ≤ N) (hy : 0 < coordF F.toFl F.AD N j) :
    0.3 ≤ (getPolarF F.toFl F.AD F.a N i j).2 ∧ (getPolarF F.toFl F.AD F.a N i j).2 ≤ 6.7 := by
  have cx := coord_close h hN hN2 hi.1 hi.2
  have cy := coord_close h hN hN2 hj.1 hj.2
  have hT := abs_le.1 (hl.atan2 _ _ cx.double cy.double cx.moderate cy.moderate)
  have a0 : 0 ≤ Complex.arg ⟨coordF F.toFl F.AD N i, coordF F.toFl F.AD N j⟩ := Complex.arg_nonneg_iff.2 hy.le
  have a1 := Complex.arg_le_pi ⟨coordF F.toFl F.AD N i, coordF F.toFl F.AD N j⟩
  rw [abs_of_nonneg a0] at hT
  have p2 := pi_lt_d2
  obtain ⟨t1, t2⟩ := twoPi_bounds h
  obtain ⟨b1, b2⟩ := a_bounds h
  have hh := abs_le.1 (Rnd.rel' h (x := F.a / 2) (lo := 0.3) (hi := 0.4) (by rw [abs_of_pos (by linarith)]; linarith)
    (by rw [abs_of_pos (by linarith)]; linarith) (by norm_num) (by norm_num))
  have hs : ∀ t, 0 ≤ t → t ≤ 0.396 → 6.1 ≤ F.rnd (t + F.twoPi) ∧ F.rnd (t + F.twoPi) ≤ 6.7 := fun t h0 h1 => by
    have := abs_le.1 (Rnd.rel' h (x := t + F.twoPi) (lo := 6) (hi := 6.7) (by rw [abs_of_pos (by linarith)]; linarith)
      (by rw [abs_of_pos (by linarith)]; linarith) (by norm_num) (by norm_num))
    have e : (1 : ℝ) / 2 ^ 53 * 6.7 ≤ 0.001 := by norm_num
    constructor <;> linarith
  have e : (1 : ℝ) / 2 ^ 53 * 0.4 ≤ 0.0005 := by norm_num
  have e2 : (1 : ℝ) / 2 ^ 50 ≤ 0.001 := by norm_num
  unfold getPolarF cartToPolarF getCoordF
  dsimp only
  have T0 : 0 ≤ F.atan2 (coordF F.toFl F.AD N j) (coordF F.toFl F.AD N i) := by nlinarith
  have T1 : F.atan2 (coordF F.toFl F.AD N j) (coordF F.toFl F.AD N i) ≤ 3.2 := by nlinarith
  by_cases c : F.atan2 (coordF F.toFl F.AD N j) (coordF F.toFl F.AD N i) ≤ 0
  · rw [if_pos c]
    have := hs _ T0 (c.trans (by norm_num))
    rw [if_neg (by dsimp only; linarith)]
    dsimp only
    constructor <;> linarith
  · rw [if_neg c]
    dsimp only
    split_ifs with c2
    · have := hs _ T0 (by linarith)
      dsimp only
      constructor <;> linarith
    · dsimp only
      constructor <;> linarith

section rounded
variable (g : GoodLib97 F) {iter : Iter} (hit : IsIter iter) {N : ℕ} {j : ℤ} {evalR : ℝ → ℝ}
  {bcoord : ℝ → ℝ → Option (ℝ × ℝ)}
include g

theorem corner_F : 1.6 ≤ F.rnd (F.rnd probR * F.sin F.a) ∧ F.rnd (F.rnd probR * F.sin F.a) ≤ 1.7 ∧
    1.6 ≤ F.rnd (F.rnd probR * F.cos F.a) ∧ F.rnd (F.rnd probR * F.cos F.a) ≤ 1.7 ∧ 2.29 ≤ F.rnd probR ∧ F.rnd probR ≤ 2.31 := by
  have h := g.rnd
  have hR := abs_le.1 (Rnd.rel' h (x := probR) (lo := 2) (hi := 2.3) (by unfold probR; rw [abs_of_pos (by norm_num)]; norm_num)
    (by unfold probR; rw [abs_of_pos (by norm_num)]; norm_num) (by norm_num) (by norm_num))
  have hR1 : 2.29 ≤ F.rnd probR ∧ F.rnd probR ≤ 2.31 := by
    unfold probR at hR ⊢
    norm_num at *; constructor <;> linarith
  have hb : |F.pi / 4| ≤ 2 ^ 1000 := le_big (c := 1) (by rw [pi_value h, abs_of_pos (by norm_num)]; norm_num) (by norm_num)
  obtain ⟨a1, a2⟩ := a_bounds h
  obtain ⟨t1, t2⟩ := g.trig F.a (Rnd.double h hb) (by linarith) (by linarith)
  have ae := a_err h
  have r2 : 1.414 < √2 := by rw [lt_sqrt (by norm_num)]; norm_num
  have r2' : √2 < 1.415 := by rw [sqrt_lt' (by norm_num)]; norm_num
  have s1 : |Real.sin F.a - √2 / 2| ≤ 1 / 2 ^ 52 := by
    rw [← sin_pi_div_four]
    exact (abs_sin_sub_sin_le _ _).trans ae
  have c1 : |Real.cos F.a - √2 / 2| ≤ 1 / 2 ^ 52 := by
    rw [← cos_pi_div_four]
    exact (abs_cos_sub_cos_le _ _).trans ae
  have key : ∀ s : ℝ, 0.706 ≤ s → s ≤ 0.708 → 1.6 ≤ F.rnd (F.rnd probR * s) ∧ F.rnd (F.rnd probR * s) ≤ 1.7 := by
    intro s h1 h2
    have p1 : 1.61 ≤ F.rnd probR * s := by nlinarith [hR1.1]
    have p2 : F.rnd probR * s ≤ 1.64 := by nlinarith [hR1.2]
    have := abs_le.1 (Rnd.rel' h (x := F.rnd probR * s) (lo := 1) (hi := 1.64) (by rw [abs_of_pos (by linarith)]; linarith)
      (by rw [abs_of_pos (by linarith)]; exact p2) (by norm_num) (by norm_num))
    norm_num at *; constructor <;> linarith
  have k1 := key (F.sin F.a) (by rw [abs_le] at *; norm_num at *; linarith) (by rw [abs_le] at *; norm_num at *; linarith)
  have k2 := key (F.cos F.a) (by rw [abs_le] at *; norm_num at *; linarith) (by rw [abs_le] at *; norm_num at *; linarith)
  exact ⟨k1.1, k1.2, k2.1, k2.2, hR1⟩

omit g in
theorem hypot_small (hl : Libm F.hypot F.atan2) {x y X Y : ℝ} (cx : Close N x X) (cy : Close N y Y) (hx0 : 0 ≤ x) (hx : x ≤ 1.102)
    (hy0 : 0 ≤ y) (hy : y ≤ 1.102) : 0 ≤ F.hypot x y ∧ F.hypot x y ≤ 1.6 := by
  have hh := abs_le.1 (hl.hypot _ _ cx.double cy.double cx.moderate cy.moderate)
  have hs0 := sqrt_nonneg (x ^ 2 + y ^ 2)
  have hs : √(x ^ 2 + y ^ 2) ≤ 1.57 := by
    rw [sqrt_le_left (by norm_num)]; nlinarith
  have e : (1 : ℝ) / 2 ^ 50 ≤ 0.001 := by norm_num
  constructor <;> nlinarith

omit g in
theorem three_coords (h : RoundsToNearest F.rnd) (hN : 0 < N) (hN2 : N ≤ 2 ^ 40) (hj : N < 2 * j) (hjN : j + 2 ≤ N - 1)
    (hx : coordF F.toFl F.AD N (j + 2) ≤ 1.1) (hy : 1 / 8 ≤ coordF F.toFl F.AD N j) :
    (0 ≤ coordF F.toFl F.AD N (j + 1) ∧ coordF F.toFl F.AD N (j + 1) ≤ 1.102) ∧ 0.12 ≤ coordF F.toFl F.AD N (j + 2) ∧
      coordF F.toFl F.AD N j ≤ 1.102 ∧ 0 < (getCoord probAD N (j + 2 : ℤ) j).2 ∧
      (getCoord probAD N (j + 2 : ℤ) j).2 < (getCoord probAD N (j + 2 : ℤ) j).1 := by
  have hNr : (0 : ℝ) < N := by exact_mod_cast hN
  have hpi := pi_gt_d2
  have cx := coord_close h hN hN2 (i := j + 2) (by omega) (by omega)
  have cy := coord_close h hN hN2 (i := j) (by omega) (by omega)
  have cz := coord_close h hN hN2 (i := j + 1) (by omega) (by omega)
  have hXY : probAD * ((j : ℝ) / N - 1 / 2) < probAD * (((j + 1 : ℤ) : ℝ) / N - 1 / 2) ∧
      probAD * (((j + 1 : ℤ) : ℝ) / N - 1 / 2) < probAD * (((j + 2 : ℤ) : ℝ) / N - 1 / 2) := by
    rw [node_pos hN, node_pos hN, node_pos hN]
    have : 0 < π / N := by positivity
    push_cast
    constructor <;> exact mul_lt_mul_of_pos_left (by linarith) this
  have hpos : 0 < probAD * ((j : ℝ) / N - 1 / 2) := by rw [← cy.pos]; linarith
  have ex := abs_le.1 cx.err
  have ey := abs_le.1 cy.err
  have ez := abs_le.1 cz.err
  have e48 : (1 : ℝ) / 2 ^ 48 ≤ 0.001 := by norm_num
  refine ⟨⟨?_, ?_⟩, ?_, ?_, hpos, hXY.1.trans hXY.2⟩
  all_goals
    obtain ⟨X1, X2⟩ := hXY
    linarith [ex.1, ex.2, ey.1, ey.2, ez.1, ez.2]

include hit in
/-- If the computed distance from the node `(j+2, j)` to the side `θ = a` exceeds the computed threshold, the construction for the
fourth-order scheme ends with an AssertionError. -/
theorem C97_assertion (hN : 0 < N) (hN2 : N ≤ 2 ^ 40) (hj : N < 2 * j) (hjN : j + 2 ≤ N - 1)
    (hx : coordF F.toFl F.AD N (j + 2) ≤ 1.1) (hy : 1 / 8 ≤ coordF F.toFl F.AD N j) (ht : F.rnd (F.rnd (F.AD / N) * F.rnd √2) < 1 / 5)
    (hty : F.rnd (F.rnd (F.AD / N) * F.rnd √2) < coordF F.toFl F.AD N j)
    (hfoot : 0 ≤ (getRadiusPointF F F.a (coordF F.toFl F.AD N (j + 2)) (coordF F.toFl F.AD N j)).2)
    (hfoot2 : (getRadiusPointF F F.a (coordF F.toFl F.AD N (j + 2)) (coordF F.toFl F.AD N j)).2 < 1.6)
    (htie : F.rnd (F.rnd (F.AD / N) * F.rnd √2) <
      distToRadiusF F F.a (coordF F.toFl F.AD N (j + 2)) (coordF F.toFl F.AD N j))
    (hev : ∀ t, 0.78 ≤ t → t ≤ 6.3 → 1.6 ≤ evalR t)
    (hbc : ∀ ρ θ c, 0 ≤ ρ → ρ ≤ 1.6 → 0.3 ≤ θ → θ ≤ 6.7 → bcoord ρ θ = some c → 1 / 5 ≤ |c.1|) :
    psConstructGridsF iter (shippedF F N evalR bcoord) 4 = .error .assertionError := by
  classical
  set e := shippedF F N evalR bcoord with he
  have h := g.rnd
  obtain ⟨y1, y2, x1, x2, R1, R2⟩ := corner_F g
  have cx := coord_close h hN hN2 (i := j + 2) (by omega) (by omega)
  have cy := coord_close h hN hN2 (i := j) (by omega) (by omega)
  have cz := coord_close h hN hN2 (i := j + 1) (by omega) (by omega)
  obtain ⟨⟨hz0, hz⟩, hxl, hyu, hp, hlt⟩ := three_coords h hN hN2 hj hjN hx hy
  have part := C09_partition hit N 4 e.interior
  -- the diagonal neighbour is interior
  have in1 : e.interior (j + 1, j + 1) := by
    have w : inWedgeF F.toFl F.AD F.a N (j + 1) (j + 1) := by
      rw [(C96_sides h g.libm hN hN2 (by omega) (by omega) g.diag).1]
      intro c; exact lt_irrefl _ c.2
    refine ⟨?_, w⟩
    have l := hev (getPolarF F.toFl F.AD F.a N (j + 1) (j + 1)).2 ((a_bounds h).1.trans w.1) (w.2.trans (twoPi_bounds h).2)
    refine le_trans ?_ l
    show (getPolarF F.toFl F.AD F.a N (j + 1) (j + 1)).1 ≤ _
    rw [getPolarF_fst]
    exact (hypot_small g.libm cz cz hz0 hz hz0 hz).2
  -- the node is not
  have out : ¬ e.interior (j + 2, j) := by
    intro q
    have w : inWedgeF F.toFl F.AD F.a N (j + 2) j := q.2
    rw [(C96_sides h g.libm hN hN2 (by omega) (by omega) g.diag).1] at w
    exact w ⟨hp, hlt⟩
  have hM1 : (j + 1, j + 1) ∈ (constructGrids iter N 4 e.interior).Mplus := by
    rw [part.2.2.2.2.1]
    exact ⟨(part.2.1 _ _).2 ⟨by omega, by omega, by omega, by omega⟩, in1⟩
  have hM2 : (j + 2, j) ∈ (constructGrids iter N 4 e.interior).Mminus := by
    have h0 : (j + 2, j) ∈ (constructGrids iter N 4 e.interior).M0 :=
      (part.2.1 _ _).2 ⟨by omega, by omega, by omega, by omega⟩
    rw [← part.2.2.2.1, Finset.mem_union] at h0
    exact h0.resolve_left fun q => out ((part.2.2.2.2.1 _).1 q).2
  have hug : (j + 2, j) ∈ iter 3 ((nSets iter 4 (constructGrids iter e.N 4 e.interior)).1 ∩
      (nSets iter 4 (constructGrids iter e.N 4 e.interior)).2) := by
    rw [(hit _ _).2, Finset.mem_inter, (mem_nSets hit e.N 4 e.interior _).1, (mem_nSets hit e.N 4 e.interior _).2]
    refine ⟨⟨_, hM1, ?_, ?_, by norm_num⟩, _, hM2, by simp, by simp, by norm_num⟩
    · show |j + 2 - (j + 1)| ≤ 1
      rw [show j + 2 - (j + 1) = 1 by ring]; norm_num
    · show |j - (j + 1)| ≤ 1
      rw [show j - (j + 1) = -1 by ring]; norm_num
  have hthr : e.threshold < 1 / 5 := ht
  -- no segment is near
  have far1 : 1 / 4 < dformulaF F (F.rnd probR) 0 (coordF F.toFl F.AD N (j + 2)) (coordF F.toFl F.AD N j) := by
    have u : |F.rnd probR - coordF F.toFl F.AD N (j + 2)| = F.rnd probR - coordF F.toFl F.AD N (j + 2) := abs_of_pos (by linarith)
    have w : |0 - coordF F.toFl F.AD N j| = coordF F.toFl F.AD N j := by rw [zero_sub, abs_neg, abs_of_pos (by linarith)]
    refine dist_far h g.sq ?_ ?_ ?_ ?_ (.inl ?_) <;> first | rw [u] | rw [w]
    all_goals linarith
  have far2 : 1 / 4 < dformulaF F (F.rnd (F.rnd probR * F.cos F.a)) (F.rnd (F.rnd probR * F.sin F.a))
      (coordF F.toFl F.AD N (j + 2)) (coordF F.toFl F.AD N j) := by
    have u : |F.rnd (F.rnd probR * F.cos F.a) - coordF F.toFl F.AD N (j + 2)|
        = F.rnd (F.rnd probR * F.cos F.a) - coordF F.toFl F.AD N (j + 2) := abs_of_pos (by linarith)
    have w : |F.rnd (F.rnd probR * F.sin F.a) - coordF F.toFl F.AD N j|
        = F.rnd (F.rnd probR * F.sin F.a) - coordF F.toFl F.AD N j := abs_of_pos (by linarith)
    refine dist_far h g.sq ?_ ?_ ?_ ?_ (.inl ?_) <;> first | rw [u] | rw [w]
    all_goals linarith
  have hρ : 0 ≤ (e.polar (j + 2, j)).1 ∧ (e.polar (j + 2, j)).1 ≤ 1.6 := by
    show 0 ≤ (getPolarF F.toFl F.AD F.a N (j + 2) j).1 ∧ (getPolarF F.toFl F.AD F.a N (j + 2) j).1 ≤ _
    rw [getPolarF_fst]
    exact hypot_small g.libm cx cy (le_trans (by norm_num) hxl) (hx.trans (by norm_num)) (le_trans (by norm_num) hy) hyu
  have hθ := angle_F h g.libm (i := j + 2) hN hN2 (by omega) (j := j) (by omega) (by linarith)
  have hnear : ∀ sid, ¬ NearF e (j + 2, j) sid :=
    not_near (e := e) (nd := (j + 2, j)) (le_trans (by norm_num) hxl) (le_trans hx (le_trans (by norm_num) R1)) hthr far1 far2 (fun c => hbc _ _ c hρ.1 hρ.2 hθ.1 hθ.2) hty hfoot (hfoot2.le.trans y1) htie
  rw [psConstructGridsF_eq]
  rw [if_neg]
  intro hall
  obtain ⟨sid, hs⟩ := hall _ hug
  exact hnear sid hs

include hit in
theorem assertion_of (i j : ℤ) (M : ℝ) (hi : i = j + 2) (hM : M = N) (hN : 0 < N) (hN2 : N ≤ 2 ^ 40) (hj : N < 2 * j) (hjN : i ≤ N - 1)
    {x y t : ℝ} (ex : coordF F.toFl F.AD N i = x) (ey : coordF F.toFl F.AD N j = y) (et : F.rnd (F.rnd (F.AD / M) * F.rnd √2) = t)
    (hx : x ≤ 1.1) (hy : 1 / 8 ≤ y) (ht : t < 1 / 5) (hty : t < y)
    (tie : F.rnd (F.rnd (F.AD / M) * F.rnd √2) < distToRadiusF F F.a (coordF F.toFl F.AD N i) (coordF F.toFl F.AD N j) ∧
      0 ≤ (getRadiusPointF F F.a (coordF F.toFl F.AD N i) (coordF F.toFl F.AD N j)).2 ∧
      (getRadiusPointF F F.a (coordF F.toFl F.AD N i) (coordF F.toFl F.AD N j)).2 < 1.6)
    (hev : ∀ t, 0.78 ≤ t → t ≤ 6.3 → 1.6 ≤ evalR t)
    (hbc : ∀ ρ θ c, 0 ≤ ρ → ρ ≤ 1.6 → 0.3 ≤ θ → θ ≤ 6.7 → bcoord ρ θ = some c → 1 / 5 ≤ |c.1|) :
    psConstructGridsF iter (shippedF F N evalR bcoord) 4 = .error .assertionError := by
  subst hi
  subst hM
  exact C97_assertion g hit hN hN2 hj hjN (ex ▸ hx) (ey ▸ hy) (et ▸ ht) (by rw [et, ey]; exact hty) tie.2.1 tie.2.2 tie.1 hev hbc

include hit in
/-- **In double precision the fourth-order construction ends with an AssertionError for `N = 67`, `N = 134` and `N = 257`**, on every
machine whose library meets `GoodLib97`, for every computed curve that stays away from the tip. -/
theorem C97_fails (hN : N = 67 ∨ N = 134 ∨ N = 257) (hev : ∀ t, 0.78 ≤ t → t ≤ 6.3 → 1.6 ≤ evalR t)
    (hbc : ∀ ρ θ c, 0 ≤ ρ → ρ ≤ 1.6 → 0.3 ≤ θ → θ ≤ 6.7 → bcoord ρ θ = some c → 1 / 5 ≤ |c.1|) :
    psConstructGridsF iter (shippedF F N evalR bcoord) 4 = .error .assertionError := by
  rcases hN with rfl | rfl | rfl
  · rcases tan_a_cases g.rnd g.tan with hm | hm
    · exact assertion_of g hit (N := 67) 45 43 67 (by norm_num) (by norm_num) (by norm_num) (by norm_num) (by norm_num) (by norm_num)
        (coord_67_45 g.rnd) (coord_67_43 g.rnd) (threshold_67 g.rnd) (by norm_num) (by norm_num) (by norm_num) (by norm_num)
        (tie_67_45_b g.rnd g.sq hm) hev hbc
    · exact assertion_of g hit (N := 67) 45 43 67 (by norm_num) (by norm_num) (by norm_num) (by norm_num) (by norm_num) (by norm_num)
        (coord_67_45 g.rnd) (coord_67_43 g.rnd) (threshold_67 g.rnd) (by norm_num) (by norm_num) (by norm_num) (by norm_num)
        (tie_67_45_o g.rnd g.sq hm) hev hbc
  · rcases tan_a_cases g.rnd g.tan with hm | hm
    · exact assertion_of g hit (N := 134) 78 76 134 (by norm_num) (by norm_num) (by norm_num) (by norm_num) (by norm_num) (by norm_num)
        (coord_134_78 g.rnd) (coord_134_76 g.rnd) (threshold_134 g.rnd) (by norm_num) (by norm_num) (by norm_num) (by norm_num)
        (tie_134_78_b g.rnd g.sq hm) hev hbc
    · exact assertion_of g hit (N := 134) 78 76 134 (by norm_num) (by norm_num) (by norm_num) (by norm_num) (by norm_num) (by norm_num)
        (coord_134_78 g.rnd) (coord_134_76 g.rnd) (threshold_134 g.rnd) (by norm_num) (by norm_num) (by norm_num) (by norm_num)
        (tie_134_78_o g.rnd g.sq hm) hev hbc
  · rcases tan_a_cases g.rnd g.tan with hm | hm
    · exact assertion_of g hit (N := 257) 150 148 257 (by norm_num) (by norm_num) (by norm_num) (by norm_num) (by norm_num) (by norm_num)
        (coord_257_150 g.rnd) (coord_257_148 g.rnd) (threshold_257 g.rnd) (by norm_num) (by norm_num) (by norm_num) (by norm_num)
        (tie_257_150_b g.rnd g.sq hm) hev hbc
    · exact assertion_of g hit (N := 257) 150 148 257 (by norm_num) (by norm_num) (by norm_num) (by norm_num) (by norm_num) (by norm_num)
        (coord_257_150 g.rnd) (coord_257_148 g.rnd) (threshold_257 g.rnd) (by norm_num) (by norm_num) (by norm_num) (by norm_num)
        (tie_257_150_o g.rnd g.sq hm) hev hbc

include hit in
/-- With a library that returns `np.tan(np.pi/4) = 1` (the exact value is `1 - 1.1e-16`) the same happens for the powers of two `256`,
`512` and `1024`. -/
theorem C97_tan_one (hm : F.tan F.a = 1) (hN : N = 256 ∨ N = 512 ∨ N = 1024) (hev : ∀ t, 0.78 ≤ t → t ≤ 6.3 → 1.6 ≤ evalR t)
    (hbc : ∀ ρ θ c, 0 ≤ ρ → ρ ≤ 1.6 → 0.3 ≤ θ → θ ≤ 6.7 → bcoord ρ θ = some c → 1 / 5 ≤ |c.1|) :
    psConstructGridsF iter (shippedF F N evalR bcoord) 4 = .error .assertionError := by
  rcases hN with rfl | rfl | rfl
  · exact assertion_of g hit (N := 256) 153 151 256 (by norm_num) (by norm_num) (by norm_num) (by norm_num) (by norm_num) (by norm_num)
        (coord_256_153 g.rnd) (coord_256_151 g.rnd) (threshold_256 g.rnd) (by norm_num) (by norm_num) (by norm_num) (by norm_num)
        (tie_256_153_o g.rnd g.sq hm) hev hbc
  · exact assertion_of g hit (N := 512) 281 279 512 (by norm_num) (by norm_num) (by norm_num) (by norm_num) (by norm_num) (by norm_num)
        (coord_512_281 g.rnd) (coord_512_279 g.rnd) (threshold_512 g.rnd) (by norm_num) (by norm_num) (by norm_num) (by norm_num)
        (tie_512_281_o g.rnd g.sq hm) hev hbc
  · exact assertion_of g hit (N := 1024) 537 535 1024 (by norm_num) (by norm_num) (by norm_num) (by norm_num) (by norm_num) (by norm_num)
        (coord_1024_537 g.rnd) (coord_1024_535 g.rnd) (threshold_1024 g.rnd) (by norm_num) (by norm_num) (by norm_num) (by norm_num)
        (tie_1024_537_o g.rnd g.sq hm) hev hbc

include hit in
/-- The shipped curves meet the hypotheses: with the curve and `get_boundary_coord` exact, and only the coordinates of nodes, the
distances to the straight sides and the threshold rounded, the construction ends with an AssertionError; in exact arithmetic, for the
same `N`, it succeeds. -/
theorem C97_shipped {b : Brentq} (hb : BrentqSpec b) {name : String} {r : ℝ → ℝ} (h : chooseBoundary name = .ok r)
    (hN : N = 67 ∨ N = 134 ∨ N = 257 ∨ F.tan F.a = 1 ∧ (N = 256 ∨ N = 512 ∨ N = 1024)) :
    psConstructGridsF iter (shippedF F N r (getBoundaryCoord b probA r)) 4 = .error .assertionError ∧
    ∃ G, psConstructGrids iter (mkEnv b N probAD probA probR r) 4 = .ok G := by
  have hev : ∀ t, 0.78 ≤ t → t ≤ 6.3 → 1.6 ≤ r t := fun t h1 h2 => by
    have p1 := pi_gt_d2
    have p2 := pi_lt_d2
    have := (chooseBoundary_tame h).lo t (by linarith) (by linarith)
    linarith
  have hbc : ∀ ρ θ c, 0 ≤ ρ → ρ ≤ 1.6 → 0.3 ≤ θ → θ ≤ 6.7 → getBoundaryCoord b probA r ρ θ = some c → 1 / 5 ≤ |c.1| :=
    fun ρ θ c h0 h1 h2 h3 hc => C97_far hb h h0 h1 h2 h3 hc
  have h16 : 16 ≤ N := by omega
  obtain ⟨G, hG, -⟩ := C12_shipped hit hb h16 4 h
  refine ⟨?_, G, hG⟩
  rcases hN with q | q | q | ⟨hm, q⟩
  · exact C97_fails g hit (.inl q) hev hbc
  · exact C97_fails g hit (.inr (.inl q)) hev hbc
  · exact C97_fails g hit (.inr (.inr q)) hev hbc
  · exact C97_tan_one g hit hm q hev hbc

end rounded

/-- these grid sizes are among those for which `get_n_basis` ends, so that a run gets to the construction of the grids -/
theorem C97_reachable : ∀ N ∈ ([67, 134, 257, 256, 512, 1024] : List ℤ), ∃ fuel v, getNBasis none defaultNBasis fuel N = some v := by
  intro N hN
  rw [(C59_shipped N).1]
  simp only [List.mem_cons, List.not_mem_nil, or_false] at hN
  rcases hN with rfl | rfl | rfl | rfl | rfl | rfl
  exacts [⟨2, by norm_num⟩, ⟨3, by norm_num⟩, ⟨4, by norm_num⟩, ⟨4, by norm_num⟩, ⟨5, by norm_num⟩, ⟨6, by norm_num⟩]

/-- there are libraries that meet all assumptions, with either value of `np.tan(np.pi/4)` -/
theorem C97_assumptions (m : ℝ) (hm : m = 1 - 1 / 2 ^ 53 ∨ m = 1) : ∃ F : FlLib, GoodLib97 F ∧ F.tan F.a = m ∧
    SquareSafe F.sq := by
  classical
  obtain ⟨rnd, h⟩ := exists_roundsToNearest
  set F0 : Fl := ⟨rnd, 0, 0⟩
  have h0 : RoundsToNearest F0.rnd := h
  obtain ⟨b1, b2⟩ := pi_bounds h0
  have hd : IsDouble F0.a := Rnd.double h (le_big (c := 1) (by rw [abs_of_pos (by linarith)]; linarith) (by norm_num))
  refine ⟨⟨nearestFl rnd F0.a, fun x => if x = F0.a then m else rnd (Real.tan x), Real.sin, Real.cos, fun x => x ^ 2⟩,
    ⟨h, nearestFl_libm h hd ((a_err h0).trans (by linarith [pi_gt_three])), fun x _ _ hx => ?_, fun x _ _ => ?_, fun x _ _ _ => ?_,
      fun x dx x1 x2 => ?_⟩, if_pos rfl, fun x _ _ => ?_⟩
  · show F0.a ≤ _
    unfold nearestFl
    dsimp only
    rw [if_pos ⟨rfl, hx⟩]
  · dsimp only
    rw [sub_self, abs_zero]; positivity
  · dsimp only
    rw [sub_self, sub_self, abs_zero]; constructor <;> positivity
  · dsimp only
    by_cases c : x = F0.a
    · rw [if_pos c, c]
      obtain ⟨t1, t2⟩ := tan_a_bounds h0
      refine ⟨?_, ?_⟩
      · rcases hm with rfl | rfl
        · exact ⟨2 ^ 53 - 1, -53, by norm_num, by norm_num, by norm_num, by norm_num⟩
        · exact ⟨1, 0, by norm_num, by norm_num, by norm_num, by norm_num⟩
      · rw [abs_le]; rcases hm with rfl | rfl <;> constructor <;> linarith
    · rw [if_neg c]
      have t0 : 0 ≤ Real.tan x := tan_nonneg_of_nonneg_of_le_pi_div_two (by linarith) (by linarith [pi_pos])
      have t1 : Real.tan x ≤ 1 := by
        rw [← tan_pi_div_four]
        exact strictMonoOn_tan.monotoneOn ⟨by linarith, by linarith⟩ ⟨by linarith, by linarith⟩ x2
      have t3 : 1 / 2 ≤ Real.tan x := x1.trans (le_tan (by linarith) (by linarith))
      refine ⟨Rnd.double h (le_big (c := 1) (by rw [abs_of_nonneg t0]; exact t1) (by norm_num)), ?_⟩
      have := Rnd.rel' h (x := Real.tan x) (lo := 1 / 2) (hi := 1) (by rw [abs_of_nonneg t0]; exact t3)
        (by rw [abs_of_nonneg t0]; exact t1) (by norm_num) (by norm_num)
      linarith
  · dsimp only
    rw [sub_self, abs_zero]; positivity

/-- a machine, a curve and a grid size for which all hypotheses hold -/
example : ∃ F : FlLib, GoodLib97 F ∧ ∃ iter : Iter, ∃ b : Brentq, ∃ r : ℝ → ℝ,
    psConstructGridsF iter (shippedF F 67 r (getBoundaryCoord b probA r)) 4 = .error .assertionError ∧
    psConstructGridsF iter (shippedF F 1024 r (getBoundaryCoord b probA r)) 4 = .error .assertionError ∧
    ∃ G, psConstructGrids iter (mkEnv b 67 probAD probA probR r) 4 = .ok G := by
  obtain ⟨F, g, hm, -⟩ := C97_assumptions 1 (.inr rfl)
  obtain ⟨b, hb⟩ := exists_brentq
  obtain ⟨r, hr⟩ : ∃ r, chooseBoundary "sine7" = .ok r := ⟨_, rfl⟩
  obtain ⟨h1, h2⟩ := C97_shipped g isIter_toList (N := 67) hb hr (.inl rfl)
  exact ⟨F, g, _, b, r, h1, (C97_shipped g isIter_toList (N := 1024) hb hr (.inr (.inr (.inr ⟨hm, by norm_num⟩)))).1, h2⟩

/-- the node `(45, 43)` of the grid with `N = 67` meets the hypotheses of the tie -/
example {b : Brentq} (hb : BrentqSpec b) {iter : Iter} (hit : IsIter iter) {r : ℝ → ℝ} (hr : chooseBoundary "arc" = .ok r) :
    ∃ G, psConstructGrids iter (mkEnv b 67 probAD probA probR r) 4 = .ok G ∧ ((45, 43) : Node) ∈ G.allGamma 2 ∧
      ((45, 43) : Node) ∉ G.allGamma 0 ∧ ((45, 43) : Node) ∉ G.allGamma 1 := by
  have hp := pi_lt_d2
  have hp0 := pi_pos
  have h2 : √2 < 1.4143 := by rw [sqrt_lt' (by norm_num)]; norm_num
  obtain ⟨G, hG, -, h3⟩ := C97_placed (N := 67) (j := 43) hit hb (by norm_num) (by norm_num) (by norm_num) hr (by
    have e : ∀ k l : ℤ, getCoord probAD 67 k l = (π / 67 * (2 * k - 67), π / 67 * (2 * l - 67)) := fun k l => by
      show (probAD * ((k : ℝ) / (67 : ℕ) - 1 / 2), probAD * ((l : ℝ) / (67 : ℕ) - 1 / 2)) = _
      rw [node_pos (by norm_num), node_pos (by norm_num)]; push_cast; rfl
    rw [e, norm_mk]
    have h1 : √((π / 67 * (2 * ((43 + 2 : ℤ) : ℝ) - 67)) ^ 2 + (π / 67 * (2 * ((43 : ℤ) : ℝ) - 67)) ^ 2) ≤ 1.5 := by
      rw [sqrt_le_left (by norm_num)]
      push_cast
      nlinarith
    unfold probAD
    push_cast at h1 ⊢
    nlinarith)
  exact ⟨G, hG, h3⟩

end Pot
