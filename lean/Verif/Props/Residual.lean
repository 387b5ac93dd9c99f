import Verif.Props.SourceError
import Verif.Props.FitError

/-! # The residual of the least-squares system: C84 -/

namespace Pot
open Spec Finset Real

/-- the solver `s` of a problem with exact solution `u`: the array of the source is within `T` of `Δu + k² u` where the scheme uses
it, and coefficients whose data is within `ε` of the Cauchy data of `u` have an extension whose every entry is within `δ ε` of `u` -/
structure Approx (iter : Iter) (n : ℕ) (s : PSolver) (u : ℝ × ℝ → ℂ) (T : ℝ) (δ : ℝ → ℝ) : Prop where
  order : s.order = 4
  setup : Setup iter s.e n 4 s.k s.G
  ready : Ready s
  inhomo : ∃ extF, extendInhomoF s = .ok extF
  src : ∃ f : Arr (n + 2), setupF iter s = .ok f ∧ ∀ q ∈ s.G.Kplus,
    ‖fullNode f q.1 q.2 - helm (fun i j x y => pdFam u i j (x, y)) s.k (s.e.coord q).1 (s.e.coord q).2‖ ≤ T
  ents : ∀ c0 c1 : List ℂ, c0.length = s.bas.bDesc.length → c1.length = s.bas.bDesc.length → ∀ ε, NearExact s (.full c0 c1) u ε →
    ∃ m, mvExtendBoundary s (.full c0 c1) false = .ok m ∧ EntriesNear s m u (δ ε)

theorem Approx.ext {iter : Iter} {n : ℕ} {s : PSolver} {u : ℝ × ℝ → ℂ} {T : ℝ} {δ : ℝ → ℝ} (A : Approx iter n s u T δ) (c0 c1 : List ℂ)
    (l0 : c0.length = s.bas.bDesc.length) (l1 : c1.length = s.bas.bDesc.length) (ε : ℝ) (hex : NearExact s (.full c0 c1) u ε) :
    ∃ ext, extendBoundary s (.full c0 c1) = .ok ext ∧ ext.length = s.G.unionGamma.length ∧
      ∀ (l : ℕ) (hl : l < s.G.unionGamma.length) (hl' : l < ext.length), ‖ext[l] - u (s.e.coord s.G.unionGamma[l])‖ ≤ δ ε := by
  obtain ⟨m, hm, hE⟩ := A.ents c0 c1 l0 l1 ε hex
  obtain ⟨ext, h1, h2, h3⟩ := hE.reduce
  refine ⟨ext, ?_, h2, h3⟩
  unfold extendBoundary
  rw [hm, ok_bind, h1]

/-- the discrete boundary has at most `N²` nodes -/
theorem gamma_card {iter : Iter} {e : Env} {n order : ℕ} {k : ℝ} {G : PsGrids} (S : Setup iter e n order k G) :
    G.unionGamma.length ≤ n ^ 2 := by
  classical
  rw [← List.toFinset_card_of_nodup S.core.nodup]
  have hsub : G.unionGamma.toFinset ⊆ (Finset.Icc (1 : ℤ) n) ×ˢ (Finset.Icc (1 : ℤ) n) := by
    intro q hq
    obtain ⟨h1, h2, h3, h4⟩ := S.gamR q (List.mem_toFinset.1 hq)
    rw [Finset.mem_product, Finset.mem_Icc, Finset.mem_Icc]
    omega
  refine (Finset.card_le_card hsub).trans ?_
  rw [Finset.card_product, Int.card_Icc]
  simp [pow_two]

/-- a sum over the discrete boundary is at most the sum over `Nplus` -/
theorem gamma_sum_le {iter : Iter} {e : Env} {n order : ℕ} {k : ℝ} {G : PsGrids} (S : Setup iter e n order k G) (F : Node → ℝ)
    (hF : ∀ q, 0 ≤ F q) : (G.unionGamma.map F).sum ≤ ∑ q ∈ G.Nplus, F q := by
  classical
  rw [← List.sum_toFinset _ S.core.nodup]
  refine Finset.sum_le_sum_of_subset_of_nonneg (fun q hq => ?_) fun q _ _ => hF q
  exact ((S.core.gam q).1 (List.mem_toFinset.1 hq)).1

/-- **C84** the defect of the final extension for coefficients whose data is near the exact Cauchy data. -/
theorem C84_defect {iter : Iter} {n : ℕ} {s : PSolver} {u : ℝ × ℝ → ℂ} {T : ℝ} {δ : ℝ → ℝ} (A : Approx iter n s u T δ)
    (hAD : 0 < s.e.AD) {m : ℝ} (hm : 0 < m) (hlow : EigLower n 4 s.e.AD s.k m) (hu : ContDiff ℝ 6 u) {M6 : ℝ}
    (hM6 : ∀ i j, i + j = 6 → ∀ x y : ℝ, |x| ≤ s.e.AD / 2 → |y| ≤ s.e.AD / 2 → ‖pdFam u i j (x, y)‖ ≤ M6) (hT : 0 ≤ T)
    {ap : Arr n} (hap : initApSolF n iter s = .ok ap) {c0 c1 : List ℂ} (l0 : c0.length = s.bas.bDesc.length)
    (l1 : c1.length = s.bas.bDesc.length) {ε : ℝ} (hex : NearExact s (.full c0 c1) u ε) (hδ : 0 ≤ δ ε) :
    ∃ d, defect n iter s ap c0 c1 = .ok d ∧
      √d ≤ 2 * (s.e.N * ((2 + (8 / (s.e.AD / s.e.N) ^ 2 + s.k ^ 2) / m) * δ ε + (11 / 180 * M6 * (s.e.AD / s.e.N) ^ 4 + T) / m)) := by
  have S := A.setup
  have hNn : (s.e.N : ℝ) = (n : ℝ) + 1 := by rw [S.hN]; push_cast; rfl
  have hN0 : (0:ℝ) < s.e.N := by rw [hNn]; positivity
  obtain ⟨f, hf, hfz⟩ := A.src
  obtain ⟨ext, he1, he2, he3⟩ := A.ext c0 c1 l0 l1 ε hex
  have hJ := jet_of_contDiff (n := 6) (g := u) (by exact_mod_cast hu)
  obtain ⟨s0, w, h1, h2, h3, -⟩ := C80_rate S hAD hm hlow hJ (M := M6) (T := T) hT (δ := δ ε) hδ hM6 f hfz
    ext he2 (fun l => he3 l l.2 (by rw [he2]; exact l.2))
  have hap' : ap = s0 := by
    unfold initApSolF at hap
    rw [hf, ok_bind, A.order] at hap
    exact Except.ok.inj (hap.symm.trans h1)
  subst hap'
  have htr := getTrace_ok s.G.unionGamma S.gamR w
  refine ⟨∑ l ∈ range s.G.unionGamma.length,
    ‖(s.G.unionGamma.map fun q => node w q.1 q.2).getD l 0 - ext.getD l 0‖ ^ 2, ?_, ?_⟩
  · unfold defect
    rw [he1, ok_bind, A.order, h2, ok_bind, htr, ok_bind, pure_eq_ok]
  set Γ := s.G.unionGamma with hΓ
  set B := (1 + (8 / (s.e.AD / s.e.N) ^ 2 + s.k ^ 2) / m) * δ ε + (11 / 180 * M6 * (s.e.AD / s.e.N) ^ 4 + T) / m with hB
  have hM0 : 0 ≤ M6 := (norm_nonneg _).trans (hM6 6 0 rfl 0 0 (by simp; linarith) (by simp; linarith))
  have hB0 : 0 ≤ B := by positivity
  -- the two parts
  set P := ∑ q ∈ s.G.Nplus, ‖node w q.1 q.2 - u (s.e.coord q)‖ ^ 2 with hP
  have hpd : ∀ q : Node, pdFam u 0 0 ((s.e.coord q).1, (s.e.coord q).2) = u (s.e.coord q) := fun q => rfl
  have hP1 : √P ≤ s.e.N * B := by
    simp only [hpd] at h3
    have h4 : s.e.AD / s.e.N * √P ≤ s.e.AD * B := h3
    rw [div_mul_eq_mul_div, div_le_iff₀ hN0] at h4
    have h5 : s.e.AD * √P ≤ s.e.AD * (s.e.N * B) := by linarith
    exact le_of_mul_le_mul_left h5 hAD
  have hP0 : 0 ≤ P := sum_nonneg fun _ _ => by positivity
  have hP2 : P ≤ (s.e.N * B) ^ 2 := by
    rw [← Real.sq_sqrt hP0]
    exact pow_le_pow_left₀ (Real.sqrt_nonneg _) hP1 2
  have hcard : (Γ.length : ℝ) ≤ (s.e.N : ℝ) ^ 2 := by
    have h1 : (Γ.length : ℝ) ≤ (n : ℝ) ^ 2 := by exact_mod_cast gamma_card S
    refine h1.trans (pow_le_pow_left₀ (by positivity) (by rw [hNn]; linarith) 2)
  have hbd : ∀ l ∈ range Γ.length, ‖(Γ.map fun q => node w q.1 q.2).getD l 0 - ext.getD l 0‖ ^ 2 ≤
      2 * (Γ.map fun q => ‖node w q.1 q.2 - u (s.e.coord q)‖ ^ 2).getD l 0 + 2 * δ ε ^ 2 := by
    intro l hl
    have hl := mem_range.1 hl
    have e1 : (Γ.map fun q => node w q.1 q.2).getD l 0 = node w Γ[l].1 Γ[l].2 := by simp [List.getD_eq_getElem?_getD, hl]
    have e2 : (Γ.map fun q => ‖node w q.1 q.2 - u (s.e.coord q)‖ ^ 2).getD l 0 = ‖node w Γ[l].1 Γ[l].2 - u (s.e.coord Γ[l])‖ ^ 2 := by
      simp [List.getD_eq_getElem?_getD, hl]
    have hl' : l < ext.length := by rw [he2]; exact hl
    have e3 : ext.getD l 0 = ext[l] := by simp [List.getD_eq_getElem?_getD, hl']
    rw [e1, e2, e3]
    have h4 := he3 l hl hl'
    have h5 : ‖node w Γ[l].1 Γ[l].2 - ext[l]‖ ≤ ‖node w Γ[l].1 Γ[l].2 - u (s.e.coord Γ[l])‖ + ‖ext[l] - u (s.e.coord Γ[l])‖ := by
      have := norm_sub_le (node w Γ[l].1 Γ[l].2 - u (s.e.coord Γ[l])) (ext[l] - u (s.e.coord Γ[l]))
      rwa [sub_sub_sub_cancel_right] at this
    set x := ‖node w Γ[l].1 Γ[l].2 - u (s.e.coord Γ[l])‖
    set y := ‖ext[l] - u (s.e.coord Γ[l])‖
    have hx : 0 ≤ x := norm_nonneg _
    have hy : 0 ≤ y := norm_nonneg _
    have h6 := pow_le_pow_left₀ (norm_nonneg _) h5 2
    have h7 := pow_le_pow_left₀ hy h4 2
    have h8 := sq_nonneg (x - y)
    linarith [h6, h7, h8, (by ring : (x + y) ^ 2 + (x - y) ^ 2 = 2 * x ^ 2 + 2 * y ^ 2)]
  have hsum := sum_le_sum hbd
  rw [sum_add_distrib, ← mul_sum, sum_const, card_range, nsmul_eq_mul] at hsum
  have hlist : ∑ l ∈ range Γ.length, (Γ.map fun q => ‖node w q.1 q.2 - u (s.e.coord q)‖ ^ 2).getD l 0 =
      (Γ.map fun q => ‖node w q.1 q.2 - u (s.e.coord q)‖ ^ 2).sum := by
    rw [sum_range, ← List.sum_ofFn]
    congr 1
    apply List.ext_getElem <;> simp [List.getD_eq_getElem?_getD]
  rw [hlist] at hsum
  have hg := gamma_sum_le S (fun q => ‖node w q.1 q.2 - u (s.e.coord q)‖ ^ 2) fun q => by positivity
  apply Real.sqrt_le_iff.2
  refine ⟨by positivity, hsum.trans ?_⟩
  have h9 : (Γ.length : ℝ) * (2 * δ ε ^ 2) ≤ 2 * (s.e.N * δ ε) ^ 2 := by
    have := mul_le_mul_of_nonneg_right hcard (by positivity : 0 ≤ 2 * δ ε ^ 2)
    linarith [this, (by ring : (s.e.N : ℝ) ^ 2 * (2 * δ ε ^ 2) = 2 * (s.e.N * δ ε) ^ 2)]
  have e : 2 * (s.e.N * ((2 + (8 / (s.e.AD / s.e.N) ^ 2 + s.k ^ 2) / m) * δ ε + (11 / 180 * M6 * (s.e.AD / s.e.N) ^ 4 + T) / m)) =
      2 * (s.e.N * B + s.e.N * δ ε) := by rw [hB]; ring
  rw [e]
  have h10 : 0 ≤ s.e.N * B := by positivity
  have h11 : 0 ≤ s.e.N * δ ε := by positivity
  have h12 := mul_nonneg h10 h11
  have h13 := sq_nonneg (s.e.N * B)
  have h14 := sq_nonneg (s.e.N * δ ε)
  linarith [(by ring : (2 * (s.e.N * B + s.e.N * δ ε)) ^ 2 =
    4 * (s.e.N * B) ^ 2 + 8 * (s.e.N * B * (s.e.N * δ ε)) + 4 * (s.e.N * δ ε) ^ 2), hP2, hg, h9]

/-- the solver of a problem on a shipped boundary with fourth order -/
structure ShippedSolver (s : PSolver) (b : Brentq) (n : ℕ) (r : ℝ → ℝ) (k eps : ℝ) (p q : ℕ) : Prop where
  env : s.e = mkEnv b (n + 1) probAD probA probR r
  k : s.k = k
  eps : s.eps = eps
  bas : s.bas = setupBasis p q
  nonempty : s.G.Mplus ≠ ∅

theorem mplus_shipped {iter : Iter} {b : Brentq} {n order : ℕ} {k : ℝ} {r : ℝ → ℝ} {G : PsGrids} (T : Tame r) (hN : 16 ≤ n + 1)
    (S : Setup iter (mkEnv b (n + 1) probAD probA probR r) n order k G) : G.Mplus ≠ ∅ := by
  have hpi := pi_pos
  have hAD : 0 < probAD := by unfold probAD; positivity
  have hsc : probAD / (n + 1 : ℕ) * √2 ≤ 0.556 := shipped_scale (n + 1) hN
  have hA : probA / 2 ≤ 5 * π / 4 := by unfold probA; linarith
  have hA' : 0 ≤ probA := by unfold probA; linarith
  refine mplus_ne_empty hAD (by omega) (T.gentleAt hN).apos (T.gentleAt hN).aπ ?_ ?_ S
  · have := T.lo (2 * π) (by linarith) (by linarith)
    norm_num at this; linarith
  · have := T.lo (5 * π / 4) hA (by linarith)
    norm_num at this; linarith

/-- bounds of `C81`, for every choice of the coefficients -/
theorem approx_homogeneous {name : String} {r : ℝ → ℝ} (hname : chooseBoundary name = .ok r) {k : ℝ}
    (hk : k = smoothK ∨ k = ihK ∨ k = quadK ∨ k = 1) {u : ℝ × ℝ → ℂ} (hu : ContDiff ℝ 6 u) (hpde : HelmholtzPlane k u) :
    ∃ D, 0 ≤ D ∧ ∀ {iter : Iter}, IsIter iter → ∀ {b : Brentq}, BrentqSpec b → ∀ {n : ℕ}, 16 ≤ n + 1 → ∀ {eps : ℝ}, 0 < eps →
      ∀ {source : Source}, source.homogeneous = true → (∀ x y, source.f x y = 0) → ∀ {p q : ℕ}, 1 ≤ p → 1 ≤ q →
      ∀ {s : PSolver}, psInit iter (mkEnv b (n + 1) probAD probA probR r) 4 k eps p q source = .ok s →
      ShippedSolver s b n r k eps p q ∧
        Approx iter n s u (D * (1 / ((n : ℝ) + 1) ^ 3 + 0)) fun ε => D * (ε + 1 / ((n : ℝ) + 1) ^ 5 + 0 / ((n : ℝ) + 1) ^ 2) := by
  have hpi := pi_pos
  have T := chooseBoundary_tame hname
  have hAD : 0 < probAD := by unfold probAD; positivity
  obtain ⟨K, L, X, B⟩ := exists_bounds hu k probA probR (r := r) (by exact_mod_cast chooseBoundary_smooth hname 6) T.regular
  have hX : 0 ≤ X := (norm_nonneg _).trans (B.data 0 0 0 ⟨by norm_num, by unfold probR; linarith⟩)
  have hL : 0 ≤ L := (norm_nonneg _).trans (B.fifth 5 0 rfl (0, 0) (by simp; linarith [B.one]) (by simp; linarith [B.one]))
  have hE : 0 ≤ extC K L X := by
    have := B.one
    unfold extC
    positivity
  set c := 1.4 * (probAD * √2) with hc
  have hc0 : 0 ≤ c := by positivity
  set D := extC K L X * (1 + c ^ 5) with hD
  have hD0 : 0 ≤ D := by positivity
  refine ⟨D, hD0, ?_⟩
  intro iter hit b hb n hN eps heps source hh hf0 p q hp hq s hs
  have hν : (16:ℝ) ≤ (n : ℝ) + 1 := by exact_mod_cast hN
  set ν := (n : ℝ) + 1 with hνdef
  have hν0 : 0 < ν := by linarith
  have hcast : ((n + 1 : ℕ) : ℝ) = ν := by push_cast; rfl
  have g := T.gentleAt hN
  have hready := ready_gentle hit hb hAD g T.regular (shipped_sides hN).1 (shipped_sides hN).2.1 (shipped_sides hN).2.2 hs
  have hz : NoZeroEig n 4 probAD k := by
    obtain ⟨h1, h2, h3, h4⟩ := C78_shipped n (order := 4) (Or.inr rfl)
    rcases hk with rfl | rfl | rfl | rfl <;> assumption
  obtain ⟨G, S⟩ := setup_shipped hit hb hN (Or.inr rfl) hname hz
  have hMp : G.Mplus ≠ ∅ := mplus_shipped T hN S
  have hs' := hs
  rw [psInit_ok S.built] at hs'
  cases hs'
  set s : PSolver := ⟨mkEnv b (n + 1) probAD probA probR r, 4, k, eps, setupBasis p q, G,
    buildCache (mkEnv b (n + 1) probAD probA probR r) (G.allGamma 0), source⟩ with hsdef
  refine ⟨⟨rfl, rfl, rfl, rfl, hMp⟩, ⟨rfl, S, hready, ⟨_, extendInhomoF_homogeneous hready hh⟩, ?_, ?_⟩⟩
  · obtain ⟨f, hf, hfz⟩ := setupF_zero hit S (s := s) rfl rfl hh hf0
    refine ⟨f, hf, fun q _ => ?_⟩
    rw [hfz q, zero_sub, norm_neg]
    have := helmholtz_pdFam (hu.of_le (by norm_num)) hpde ((mkEnv b (n + 1) probAD probA probR r).coord q)
    exact (norm_eq_zero.2 this).le.trans (by positivity)
  intro c0 c1 l0 l1 ε hex
  have hε := hex.nonneg g.Rpos.le
  have hsc : probAD / (n + 1 : ℕ) * √2 ≤ 0.556 := shipped_scale (n + 1) hN
  have hδ0 : 0 ≤ probAD / (n + 1 : ℕ) * √2 := by positivity
  set d := 1.4 * (probAD / (n + 1 : ℕ) * √2) with hd
  have hdc : d = c / ν := by rw [hd, hc, hcast]; ring
  obtain ⟨m, he1, he2⟩ := C81_entries hit hb hAD g (by exact_mod_cast chooseBoundary_smooth hname 6) T.regular heps hh hs hready
    hu hpde B (src := .full c0 c1) ⟨l0.ge, l1.ge⟩ hex (d := d) (by rw [hd]; linarith) (by rw [hd]; linarith)
    (by
      have hpi' := pi_lt_d4
      unfold probR
      rw [hd, div_le_iff₀ (by norm_num)]
      have := mul_le_mul_of_nonneg_right hpi'.le hδ0
      linarith)
  refine ⟨m, he1, he2.mono ?_⟩
  have hd5 : d ^ 5 = c ^ 5 * (1 / ν ^ 5) := by rw [hdc, div_pow]; ring
  have hi5 : 0 ≤ 1 / ν ^ 5 := by positivity
  rw [hD, mul_assoc, zero_div, add_zero]
  refine mul_le_mul_of_nonneg_left ?_ hE
  rw [hd5]
  have := mul_nonneg (pow_nonneg hc0 5) hε
  linarith

/-- bounds of `C82`, for every choice of the coefficients -/
theorem approx_source {name : String} {r : ℝ → ℝ} (hname : chooseBoundary name = .ok r) {k : ℝ}
    (hk : k = smoothK ∨ k = ihK ∨ k = quadK ∨ k = 1) {u φ : ℝ × ℝ → ℂ} (hu : ContDiff ℝ 6 u) (hφ : ContDiff ℝ 3 φ)
    (hpde : HelmholtzSource k u φ) :
    ∃ D, 0 ≤ D ∧ ∀ {iter : Iter}, IsIter iter → ∀ {b : Brentq}, BrentqSpec b → ∀ {n : ℕ}, 16 ≤ n + 1 →
      (∀ (i j : ℤ) (t : ℝ), probA / 2 ≤ t → t ≤ 2 * π + probA / 2 → getCoord probAD (n + 1) i j ≠ polarPoint (r t) t) →
      ∀ {eps : ℝ}, 0 < eps → ∀ {source : Source} {η : ℝ}, SrcOf source φ η → ∀ {p q : ℕ}, 1 ≤ p → 1 ≤ q →
      ∀ {s : PSolver}, psInit iter (mkEnv b (n + 1) probAD probA probR r) 4 k eps p q source = .ok s →
      ShippedSolver s b n r k eps p q ∧
        Approx iter n s u (D * (1 / ((n : ℝ) + 1) ^ 3 + η)) fun ε => D * (ε + 1 / ((n : ℝ) + 1) ^ 5 + η / ((n : ℝ) + 1) ^ 2) := by
  have hpi := pi_pos
  have T := chooseBoundary_tame hname
  have hAD : 0 < probAD := by unfold probAD; positivity
  have hr6 : ContDiff ℝ 6 r := by exact_mod_cast chooseBoundary_smooth hname 6
  obtain ⟨K, L, X, L', B, B'⟩ := exists_srcBounds hu hφ k probA probR hr6 T.regular
  have hX : 0 ≤ X := (norm_nonneg _).trans (B.data 0 0 0 ⟨by norm_num, by unfold probR; linarith⟩)
  have hL : 0 ≤ L := (norm_nonneg _).trans (B.fifth 5 0 rfl (0, 0) (by simp; linarith [B.one]) (by simp; linarith [B.one]))
  have hL' : 0 ≤ L' := B'.cart.nonneg (by linarith [B.one])
  have hE : 0 ≤ extC K L X := by
    have := B.one
    unfold extC
    positivity
  have hE' : 0 ≤ srcC K L' := by
    have := B.one
    unfold srcC
    positivity
  set c := 1.4 * (probAD * √2) with hc
  have hc0 : 0 ≤ c := by positivity
  set D := extC K L X * (1 + c ^ 5) + srcC K L' * (c ^ 5 + c ^ 2) with hD
  have hD0 : 0 ≤ D := by positivity
  set H := 2 * L' * (probAD * √2) ^ 3 + 1 with hH
  have hH0 : 0 ≤ H := by positivity
  refine ⟨D + H, by positivity, ?_⟩
  intro iter hit b hb n hN hoff eps heps source η hsrc p q hp hq s hs
  have hη := hsrc.nonneg
  have hν : (16:ℝ) ≤ (n : ℝ) + 1 := by exact_mod_cast hN
  set ν := (n : ℝ) + 1 with hνdef
  have hν0 : 0 < ν := by linarith
  have hcast : ((n + 1 : ℕ) : ℝ) = ν := by push_cast; rfl
  have g := T.gentleAt hN
  have hready := ready_gentle hit hb hAD g T.regular (shipped_sides hN).1 (shipped_sides hN).2.1 (shipped_sides hN).2.2 hs
  have hz : NoZeroEig n 4 probAD k := by
    obtain ⟨h1, h2, h3, h4⟩ := C78_shipped n (order := 4) (Or.inr rfl)
    rcases hk with rfl | rfl | rfl | rfl <;> assumption
  obtain ⟨G, S⟩ := setup_shipped hit hb hN (Or.inr rfl) hname hz
  have hMp : G.Mplus ≠ ∅ := mplus_shipped T hN S
  obtain ⟨f, hf, hfz⟩ := C82_source hit hb hN T S hs hφ hsrc B.radius B'
  have hs' := hs
  rw [psInit_ok S.built] at hs'
  cases hs'
  set s : PSolver := ⟨mkEnv b (n + 1) probAD probA probR r, 4, k, eps, setupBasis p q, G,
    buildCache (mkEnv b (n + 1) probAD probA probR r) (G.allGamma 0), source⟩ with hsdef
  have hsc : probAD / (n + 1 : ℕ) * √2 ≤ 0.556 := shipped_scale (n + 1) hN
  have hδ0 : 0 ≤ probAD / (n + 1 : ℕ) * √2 := by positivity
  have hpos : ∀ t ∈ Set.Icc (probA / 2) (2 * π + probA / 2), 0 < r t := fun t ht => by
    have := T.lo t ht.1 ht.2
    norm_num at this; linarith
  have hside : ∀ nd ∈ s.G.unionGamma, ∀ x th, th ∈ Set.Icc (probA / 2) (2 * π + probA / 2) → x ≠ 0 → |x| ≤ probAD / (n + 1 : ℕ) * √2 →
      (th < probA ∧ dist2 (getCoord probAD (n + 1) nd.1 nd.2) (polarPoint probR probA) ≤ probAD / (n + 1 : ℕ) * √2 ∨
        2 * π < th ∧ dist2 (getCoord probAD (n + 1) nd.1 nd.2) (polarPoint probR (2 * π)) ≤ probAD / (n + 1 : ℕ) * √2) →
      getCoord probAD (n + 1) nd.1 nd.2 = move (polarPoint (r th) th) (evalNormal r th).1 (evalNormal r th).2 x →
      ((s.e.polar nd).1 < r (s.e.polar nd).2 ↔ x < 0) := by
    intro nd _ x th hth hx0 hx hcor hmv
    obtain ⟨p1, p2, p3, p4⟩ := env_polar (mkEnv b (n + 1) probAD probA probR r) g.apos (by show probA ≤ 4 * π; linarith [g.aπ]) nd
    have hcd : getCoord probAD (n + 1) nd.1 nd.2 = polarPoint ((mkEnv b (n + 1) probAD probA probR r).polar nd).1
      ((mkEnv b (n + 1) probAD probA probR r).polar nd).2 := p1.symm
    rw [hcd] at hcor hmv
    exact tame_side T hsc hth ⟨p3, p4.le⟩ p2 hx0 hx hcor hmv
  set d := 1.4 * (probAD / (n + 1 : ℕ) * √2) with hd
  have hdc : d = c / ν := by rw [hd, hc, hcast]; ring
  have hd1 : d ≤ 1 := by rw [hd]; linarith
  have hd2 : probAD / (n + 1 : ℕ) * √2 ≤ d := by rw [hd]; linarith
  have hd3 : π * (probAD / (n + 1 : ℕ) * √2) / probR ≤ d := by
    have hpi' := pi_lt_d4
    unfold probR
    rw [hd, div_le_iff₀ (by norm_num)]
    have := mul_le_mul_of_nonneg_right hpi'.le hδ0
    linarith
  have hall : ∀ {c0 c1 : List ℂ}, (XiSrc.full c0 c1).Valid s.bas.bDesc → ∀ {ε : ℝ}, NearExact s (.full c0 c1) u ε → _ :=
    fun {c0 c1} hv {ε} hex => C82_entries hit hb (Nat.succ_pos n) hAD g hr6 T.regular heps hs hready hu hφ hpde hsrc B B'
      (c0 := c0) (c1 := c1) hv hex hd1 hd2 hd3 hpos (fun nd _ t ht => hoff nd.1 nd.2 t ht.1 ht.2) hside
  refine ⟨⟨rfl, rfl, rfl, rfl, hMp⟩, ⟨rfl, S, hready, ?_, ⟨f, hf, fun q hq => ?_⟩, ?_⟩⟩
  · set z : List ℂ := List.replicate s.bas.bDesc.length 0
    obtain ⟨ε0, h0⟩ := exists_nearExact s (.full z z) hu (by exact hr6) (by exact T.regular)
    obtain ⟨extF, -, h, -⟩ := hall (c0 := z) (c1 := z) ⟨by simp [z], by simp [z]⟩ h0
    exact ⟨extF, h⟩
  · have := helmholtz_pdFam_source (hu.of_le (by norm_num)) hpde ((mkEnv b (n + 1) probAD probA probR r).coord q)
    refine ((le_of_eq (congrArg (fun z => ‖fullNode f q.1 q.2 - z‖) this)).trans (hfz q hq)).trans ?_
    have e : 2 * L' * (probAD / ((n + 1 : ℕ) : ℝ) * √2) ^ 3 = 2 * L' * (probAD * √2) ^ 3 * (1 / ν ^ 3) := by
      rw [hcast]; field_simp
    have i3 : 0 ≤ 1 / ν ^ 3 := by positivity
    rw [e]
    set W := 2 * L' * (probAD * √2) ^ 3 with hW
    have w0 : 0 ≤ W := by positivity
    have z1 := mul_nonneg hD0 (add_nonneg i3 hη)
    have z2 := mul_nonneg w0 hη
    have z3 : (D + H) * (1 / ν ^ 3 + η) = D * (1 / ν ^ 3 + η) + W * (1 / ν ^ 3) + W * η + 1 / ν ^ 3 + η := by
      rw [hH]; ring
    linarith
  intro c0 c1 l0 l1 ε hex
  have hε := hex.nonneg g.Rpos.le
  obtain ⟨-, m, -, he1, he2⟩ := hall (c0 := c0) (c1 := c1) ⟨l0.ge, l1.ge⟩ hex
  refine ⟨m, he1, he2.mono ?_⟩
  have hd5 : d ^ 5 = c ^ 5 * (1 / ν ^ 5) := by rw [hdc, div_pow]; ring
  have hd2' : η * d ^ 2 = c ^ 2 * (η / ν ^ 2) := by rw [hdc, div_pow]; ring
  have hi5 : 0 ≤ 1 / ν ^ 5 := by positivity
  have hi2 : 0 ≤ η / ν ^ 2 := by positivity
  set E := ε + 1 / ν ^ 5 + η / ν ^ 2 with hEdef
  have hsum : 0 ≤ E := by positivity
  have hbound : extC K L X * (ε + d ^ 5) + srcC K L' * (d ^ 5 + η * d ^ 2) ≤ D * E := by
    rw [hD, add_mul, mul_assoc, mul_assoc]
    have c5 := pow_nonneg hc0 5
    have c2 := pow_nonneg hc0 2
    refine add_le_add (mul_le_mul_of_nonneg_left ?_ hE) (mul_le_mul_of_nonneg_left ?_ hE')
    · rw [hd5, hEdef]
      have a1 := mul_nonneg c5 hε
      have a2 := mul_nonneg c5 hi2
      linarith
    · rw [hd5, hd2', hEdef]
      have a1 := mul_nonneg c5 hε
      have a2 := mul_nonneg c5 hi2
      have a3 := mul_nonneg c2 hε
      have a4 := mul_nonneg c2 hi5
      linarith
  refine hbound.trans ?_
  have := mul_nonneg hH0 hsum
  linarith

/-- the rate of the defect on the shipped boundaries -/
theorem defect_rate {k : ℝ} (hk : k = smoothK ∨ k = ihK ∨ k = quadK ∨ k = 1) {u : ℝ × ℝ → ℂ} (hu : ContDiff ℝ 6 u) {D : ℝ} (hD : 0 ≤ D) :
    ∃ C, 0 ≤ C ∧ ∀ {iter : Iter} {b : Brentq} {n : ℕ} {r : ℝ → ℝ} {eps : ℝ} {p q : ℕ} {s : PSolver} {η : ℝ}, 0 ≤ η →
      ShippedSolver s b n r k eps p q →
      (Approx iter n s u (D * (1 / ((n : ℝ) + 1) ^ 3 + η)) fun ε => D * (ε + 1 / ((n : ℝ) + 1) ^ 5 + η / ((n : ℝ) + 1) ^ 2)) →
      ∀ {ap : Arr n}, initApSolF n iter s = .ok ap → ∀ {c0 c1 : List ℂ}, c0.length = p + 2 * q → c1.length = p + 2 * q →
      ∀ {ε : ℝ}, NearExact s (.full c0 c1) u ε → ∃ d, defect n iter s ap c0 c1 = .ok d ∧
        √d ≤ C * (ε * ((n : ℝ) + 1) ^ 3 + 1 / ((n : ℝ) + 1) ^ 2 + η * ((n : ℝ) + 1)) := by
  have hAD : 0 < probAD := by have := pi_pos; unfold probAD; positivity
  obtain ⟨m, hm, hlow⟩ := C80_shipped_uniform (order := 4) (Or.inr rfl) hk
  obtain ⟨M6, hM0, hM6⟩ := exists_pd_bound6 hu (probAD / 2)
  set A := 2 + (8 / probAD ^ 2 + k ^ 2) / m with hA
  have hA0 : 0 ≤ A := by positivity
  set F := 11 / 180 * M6 * probAD ^ 4 / m with hF
  have hF0 : 0 ≤ F := by positivity
  refine ⟨2 * (A * D + F + D / m), by positivity, ?_⟩
  intro iter b n r eps p q s η hη hS Ap ap hap c0 c1 l0 l1 ε hex
  set ν := (n : ℝ) + 1 with hνdef
  have hν1' : 1 ≤ ν := by rw [hνdef]; linarith [(Nat.cast_nonneg n : (0:ℝ) ≤ n)]
  have hν0 : 0 < ν := by linarith
  have hbl : s.bas.bDesc.length = p + 2 * q := by rw [hS.bas, C40_length]
  have eAD : s.e.AD = probAD := by rw [hS.env]; rfl
  have eN : (s.e.N : ℝ) = ν := by rw [hS.env]; show ((n + 1 : ℕ) : ℝ) = ν; push_cast; rfl
  have hR : 0 ≤ s.e.R := by
    have : s.e.R = probR := by rw [hS.env]; rfl
    rw [this]; unfold probR; norm_num
  have hε := hex.nonneg hR
  set E := ε + 1 / ν ^ 5 + η / ν ^ 2 with hE
  have hE0 : 0 ≤ E := by positivity
  obtain ⟨d, hd, hb⟩ := C84_defect Ap (by rw [eAD]; exact hAD) hm (by rw [eAD, hS.k]; exact hlow n) hu (M6 := M6)
    (by rw [eAD]; exact hM6) (by positivity) hap (l0.trans hbl.symm) (l1.trans hbl.symm) hex (by positivity)
  refine ⟨d, hd, hb.trans ?_⟩
  rw [eAD, eN, hS.k, mul_assoc (2 : ℝ)]
  refine mul_le_mul_of_nonneg_left ?_ (by norm_num)
  have hν1 : 1 ≤ ν ^ 2 := one_le_pow₀ hν1'
  have e1 : 2 + (8 / (probAD / ν) ^ 2 + k ^ 2) / m ≤ A * ν ^ 2 := by
    have a1 : 8 / (probAD / ν) ^ 2 = 8 / probAD ^ 2 * ν ^ 2 := by field_simp
    have a2 : k ^ 2 ≤ k ^ 2 * ν ^ 2 := le_mul_of_one_le_right (sq_nonneg k) hν1
    rw [a1, hA]
    have a3 : (8 / probAD ^ 2 * ν ^ 2 + k ^ 2) / m ≤ (8 / probAD ^ 2 * ν ^ 2 + k ^ 2 * ν ^ 2) / m := by gcongr
    calc _ ≤ 2 * ν ^ 2 + (8 / probAD ^ 2 * ν ^ 2 + k ^ 2 * ν ^ 2) / m := by linarith
      _ = _ := by ring
  set Y := ε * ν ^ 3 + 1 / ν ^ 2 + η * ν with hY
  have y1 : 0 ≤ ε * ν ^ 3 := by positivity
  have y2 : 0 ≤ 1 / ν ^ 2 := by positivity
  have y3 : 0 ≤ η * ν := by positivity
  have e2 : ν * ((11 / 180 * M6 * (probAD / ν) ^ 4 + D * (1 / ν ^ 3 + η)) / m) = F * (1 / ν ^ 3) + D / m * (1 / ν ^ 2 + η * ν) := by
    rw [hF]
    field_simp
  have e4 : 1 / ν ^ 3 ≤ 1 / ν ^ 2 := by
    apply one_div_le_one_div_of_le (by positivity)
    exact pow_le_pow_right₀ hν1' (by norm_num)
  have e5 : ν * (A * ν ^ 2 * (D * E)) = A * D * Y := by rw [hE, hY]; field_simp
  have e7 : F * (1 / ν ^ 3) ≤ F * Y := mul_le_mul_of_nonneg_left (by linarith) hF0
  have e8 : D / m * (1 / ν ^ 2 + η * ν) ≤ D / m * Y := mul_le_mul_of_nonneg_left (by linarith) (by positivity)
  have e9 : ν * ((2 + (8 / (probAD / ν) ^ 2 + k ^ 2) / m) * (D * E)) ≤ ν * (A * ν ^ 2 * (D * E)) :=
    mul_le_mul_of_nonneg_left (mul_le_mul_of_nonneg_right e1 (by positivity)) hν0.le
  rw [mul_add, e2]
  rw [e5] at e9
  linarith

/-- the coefficients of a run minimise the defect -/
theorem run_minimal {iter : Iter} {n : ℕ} {s : PSolver} {u : ℝ × ℝ → ℂ} {T : ℝ} {δ : ℝ → ℝ} (A : Approx iter n s u T δ)
    (hM : s.G.Mplus ≠ ∅) {p q : ℕ} (hp : 1 ≤ p) (hq : 1 ≤ q) (hbas : s.bas = setupBasis p q) {fit : Chebfit} (hfit : IsChebfit fit)
    {lstsq : Lstsq} (hlsq : IsLstsq lstsq) {roots : List ℝ} {bc : ℝ → Fin 3 → ℂ} {ex : Option (ℝ → ℝ → ℂ)} {ap : Arr n}
    (hap : initApSolF n iter s = .ok ap) {res : RunResult n} (hrun : psRun iter s ap fit roots bc lstsq ex = .ok res) :
    calcC0 s.eps s.e.a s.e.R fit roots s.bas bc = .ok res.c0 ∧ ∃ d, defect n iter s ap res.c0 res.c1 = .ok d ∧
      ∀ c1 : List ℂ, c1.length = p + 2 * q → ∃ d', defect n iter s ap res.c0 c1 = .ok d' ∧ d ≤ d' := by
  obtain ⟨extF, hF⟩ := A.inhomo
  obtain ⟨f, hf, -⟩ := A.src
  obtain ⟨ap', res', h1, h2, h3, -, -, -, h4⟩ := C23_run (by rw [A.order]; exact A.setup) A.ready hp hq hbas hF hf hfit hlsq roots bc hM ex
  obtain rfl : ap' = ap := Except.ok.inj (h1.symm.trans hap)
  obtain rfl : res' = res := Except.ok.inj (h2.symm.trans hrun)
  exact ⟨h3, h4⟩

/-- the bound of C83 for the data and its first four derivatives: `n` basis functions, `n`-th derivative at most `M`, half width `w` -/
noncomputable def dataErr (n : ℕ) (M w : ℝ) : ℝ := (1 + 4 * (n : ℝ) ^ 9) * (M * w ^ n / (n - 4).factorial)

theorem fitBound_le {n m : ℕ} (hm : m ≤ 4) (hn : 4 ≤ n) {M w : ℝ} (hM : 0 ≤ M) (hw : 1 ≤ w) : fitBound n m M w ≤ dataErr n M w := by
  have hn1 : (1:ℝ) ≤ n := by exact_mod_cast (by omega : 1 ≤ n)
  have h1 : (n : ℝ) ^ (2 * m + 1) ≤ (n : ℝ) ^ 9 := pow_le_pow_right₀ hn1 (by omega)
  have h2 : w ^ (n - m) ≤ w ^ n := pow_le_pow_right₀ hw (by omega)
  have h3 : ((n - 4).factorial : ℝ) ≤ ((n - m).factorial : ℝ) := by exact_mod_cast Nat.factorial_le (by omega)
  have h4 : (0:ℝ) < ((n - 4).factorial : ℝ) := by exact_mod_cast Nat.factorial_pos _
  have hw0 : 0 < w := by linarith
  unfold fitBound dataErr
  gcongr

/-- **C84** the coefficients fitted to the exact Cauchy data are near it with four derivatives. -/
theorem C84_data {s : PSolver} (he : 0 < s.eps) (ha : s.e.a < 2 * π) (hR : 0 < s.e.R) (hw : ∀ sid, 1 ≤ halfWidth s.eps s.e.a s.e.R sid)
    {fit : Chebfit} (hfit : IsChebfit fit) {p q : ℕ} (hp : 4 ≤ p) (hq : 4 ≤ q) (hp' : p ≤ 1024) (hq' : q ≤ 1024)
    (hbas : s.bas = setupBasis p q) {u : ℝ × ℝ → ℂ} (hu : ContDiff ℝ (max p q + 1 : ℕ) u)
    (hr : ContDiff ℝ (max p q + 1 : ℕ) s.e.evalR) (hreg : ∀ t, 0 < s.e.evalR t ^ 2 + deriv s.e.evalR t ^ 2) {M : Fin 3 → Fin 2 → ℝ}
    (hM : ∀ sid i, ∀ x ∈ enlarged s.eps s.e.a s.e.R sid,
      ‖iteratedDeriv (nBasisBySid p q sid) (cauchyData u s.e.a s.e.evalR sid i) x‖ ≤ M sid i) {ε : ℝ}
    (hε : ∀ sid i, dataErr (nBasisBySid p q sid) (M sid i) (halfWidth s.eps s.e.a s.e.R sid) ≤ ε) :
    ∃ c0 c1 : List ℂ, c0.length = p + 2 * q ∧ c1.length = p + 2 * q ∧
      calcC0 s.eps s.e.a s.e.R fit (chebRoots 1024) s.bas (fun x sid => cauchyData u s.e.a s.e.evalR sid 0 x) = .ok c0 ∧
      calcC1Exact s.eps s.e.a s.e.R fit (chebRoots 1024) s.bas (fun x sid => cauchyData u s.e.a s.e.evalR sid 1 x) = .ok c1 ∧
      NearExact s (.full c0 c1) u ε := by
  have hn : ∀ sid, 4 ≤ nBasisBySid p q sid ∧ nBasisBySid p q sid ≤ max p q := by
    intro sid
    unfold nBasisBySid
    split <;> omega
  have hsm : ∀ i sid, ContDiff ℝ (nBasisBySid p q sid) fun x => cauchyData u s.e.a s.e.evalR sid i x := by
    intro i sid
    have := cauchyData_contDiff hu s.e.a hr hreg sid i
    exact this.of_le (by exact_mod_cast (hn sid).2)
  obtain ⟨A, lA, hA, -, bA⟩ := C83_coefficients he ha hR hfit (by omega : 1 ≤ p) (by omega : 1 ≤ q) hp' hq'
    (data := fun x sid => cauchyData u s.e.a s.e.evalR sid 0 x) (hsm 0) (M := fun sid => M sid 0) (fun sid => hM sid 0)
  obtain ⟨B, lB, -, hB, bB⟩ := C83_coefficients he ha hR hfit (by omega : 1 ≤ p) (by omega : 1 ≤ q) hp' hq'
    (data := fun x sid => cauchyData u s.e.a s.e.evalR sid 1 x) (hsm 1) (M := fun sid => M sid 1) (fun sid => hM sid 1)
  have hlen : ∀ C : Fin 3 → List ℂ, (∀ sid, (C sid).length = nBasisBySid p q sid) → (C 0 ++ C 1 ++ C 2).length = p + 2 * q := by
    intro C lC
    have h0 : (C 0).length = p := lC 0
    have h1 : (C 1).length = q := lC 1
    have h2 : (C 2).length = q := lC 2
    simp only [List.length_append, h0, h1, h2]; omega
  refine ⟨A 0 ++ A 1 ++ A 2, B 0 ++ B 1 ++ B 2, hlen A lA, hlen B lB, by rw [hbas]; exact hA, by rw [hbas]; exact hB, ?_⟩
  intro sid i m hm t ht
  have htE := physical_enlarged he.le sid ht
  have hM0 : ∀ i, 0 ≤ M sid i := fun i => (norm_nonneg _).trans (hM sid i t htE)
  obtain ⟨t0, t1⟩ := trace_full hbas lA lB sid
  have hle : ∀ i, fitBound (nBasisBySid p q sid) m (M sid i) (halfWidth s.eps s.e.a s.e.R sid) ≤ ε := fun i =>
    (fitBound_le hm (hn sid).1 (hM0 i) (hw sid)).trans (hε sid i)
  have hmn : m ≤ nBasisBySid p q sid := hm.trans (hn sid).1
  fin_cases i
  · show ‖iteratedDeriv m (trace s _ sid 0) t - _‖ ≤ ε
    rw [t0]
    exact (bA sid m hmn t htE).trans (hle 0)
  · show ‖iteratedDeriv m (trace s _ sid 1) t - _‖ ≤ ε
    rw [t1]
    exact (bB sid m hmn t htE).trans (hle 1)

/-- the half widths of the segments of the shipped problems exceed 1 -/
theorem halfWidth_shipped {eps : ℝ} (he : 0 < eps) (sid : Fin 3) : 1 ≤ halfWidth eps probA probR sid := by
  have := pi_gt_three
  unfold halfWidth
  split
  · unfold probA; linarith
  · unfold probR; linarith

/-- the discrete boundary is not empty -/
theorem gamma_ne_nil {iter : Iter} {e : Env} {n order : ℕ} {k : ℝ} {G : PsGrids} (S : Setup iter e n order k G) (hM : G.Mplus ≠ ∅) :
    G.unionGamma ≠ [] := by
  obtain ⟨p, hp, hmin⟩ := Finset.exists_min_image G.Mplus (fun q => q.1) (Finset.nonempty_iff_ne_empty.2 hM)
  obtain ⟨h1, -⟩ := S.margin p hp
  obtain ⟨r1, r2, r3, r4⟩ := (S.core.m0 p).1 (Or.inl hp)
  have hq : (p.1 - 1, p.2) ∈ G.Mminus := by
    rcases (S.core.m0 (p.1 - 1, p.2)).2 ⟨by simp only; omega, by simp only; omega, r3, r4⟩ with h | h
    · have := hmin _ h
      simp only at this
      omega
    · exact h
  have hN : p ∈ G.Nplus := (S.core.np p).2 ⟨p, hp, by simp [Reach]⟩
  have hM' : p ∈ G.Nminus := (S.core.nm p).2 ⟨_, hq, by simp [Reach]⟩
  intro h
  have := (S.core.gam p).2 ⟨hN, hM'⟩
  rw [h] at this
  simp at this

/-- what `Q_residual` computes from given coefficients is at most the root of the defect -/
theorem residual_le {iter : Iter} {n : ℕ} {s : PSolver} (S : Setup iter s.e n s.order s.k s.G) (R : Ready s) (hM : s.G.Mplus ≠ ∅)
    (hB : s.bas.bDesc ≠ []) {extF : List ℂ} (hF : extendInhomoF s = .ok extF) {ap : Arr n} {fit : Chebfit} {roots : List ℝ}
    {bc du : ℝ → Fin 3 → ℂ} {c0 c1 : List ℂ} (h0 : calcC0 s.eps s.e.a s.e.R fit roots s.bas bc = .ok c0)
    (h1 : calcC1Exact s.eps s.e.a s.e.R fit roots s.bas du = .ok c1) (l0 : c0.length = s.bas.bDesc.length)
    (l1 : c1.length = s.bas.bDesc.length) {d : ℝ} (hd : defect n iter s ap c0 c1 = .ok d) :
    ∃ residual m, qResidual iter s ap fit roots bc du = .ok (residual, m) ∧ residual.length = s.G.unionGamma.length ∧
      (residual.map fun x => x ^ 2).sum = d ∧ IsGreatest {x | x ∈ residual} m ∧ m ≤ √d := by
  obtain ⟨Q1, rhs, v, ext, tr, w, hv, hq, he, hw, ht, lv, lr, le, lt, -, hres⟩ := C23_residual S R hB hF ap l0 l1
  unfold defect at hd
  rw [he, ok_bind, hw, ok_bind, ht, ok_bind, pure_eq_ok] at hd
  have hd := Except.ok.inj hd
  set z := List.zipWith (· - ·) v rhs with hz
  have lz : z.length = s.G.unionGamma.length := by rw [hz, List.length_zipWith, lv, lr, min_self]
  have hne : z ≠ [] := by
    intro h
    rw [h] at lz
    exact gamma_ne_nil S hM (List.length_eq_zero_iff.1 lz.symm)
  have hzl : ∀ (l : ℕ) (hl : l < z.length), z[l] = tr.getD l 0 - ext.getD l 0 := by
    intro l hl
    have hl' : l < s.G.unionGamma.length := by rw [← lz]; exact hl
    rw [← hres l hl']
    have hlv : l < v.length := by rw [lv]; exact hl'
    have hlr : l < rhs.length := by rw [lr]; exact hl'
    simp [hz, List.getD_eq_getElem?_getD, hlv, hlr]
  obtain ⟨m, hm, hg⟩ := pyMax_map z hne fun x => ‖x‖
  have hsum : ((z.map fun x => ‖x‖).map fun x => x ^ 2).sum = d := by
    rw [← hd, sum_range, ← List.sum_ofFn]
    congr 1
    apply List.ext_getElem
    · simp [lz]
    · intro l h1 h2
      have hl : l < z.length := by simpa using h1
      simp only [List.getElem_map, List.getElem_ofFn]
      rw [hzl l hl]
  refine ⟨z.map fun x => ‖x‖, m, ?_, by simpa using lz, hsum, ?_, ?_⟩
  · unfold qResidual
    rw [h0, ok_bind, h1, ok_bind, hv, ok_bind, hq, ok_bind]
    unfold vecSub
    rw [if_pos (lv.trans lr.symm), pure_eq_ok, ok_bind]
    show (pyMax (z.map fun x => ‖x‖) >>= fun m => pure (z.map fun x => ‖x‖, m)) = _
    rw [hm, ok_bind, pure_eq_ok]
  · constructor
    · obtain ⟨x, hx, e⟩ := hg.1
      rw [e]
      exact List.mem_map_of_mem (f := fun x => ‖x‖) hx
    · intro y hy
      obtain ⟨x, hx, rfl⟩ := List.mem_map.1 hy
      exact hg.2 ⟨x, hx, rfl⟩
  · obtain ⟨x, hx, rfl⟩ := hg.1
    apply Real.le_sqrt_of_sq_le
    rw [← hsum]
    refine List.single_le_sum ?_ _ ?_
    · intro y hy
      obtain ⟨x, -, rfl⟩ := List.mem_map.1 hy
      positivity
    · exact List.mem_map_of_mem (f := fun x => x ^ 2) (List.mem_map_of_mem (f := fun x : ℂ => ‖x‖) hx)

/-- what C84 says about a solver and an exact solution: `rate` is the bound as a function of the error of the data -/
def ResidualRate (iter : Iter) (n : ℕ) (s : PSolver) (r : ℝ → ℝ) (u : ℝ × ℝ → ℂ) (p q : ℕ) (rate : ℝ → ℝ) : Prop :=
  ∀ {ap : Arr n}, initApSolF n iter s = .ok ap → ∀ {fit : Chebfit}, IsChebfit fit →
    -- for the coefficients the run finds: their residual is no larger than that of any near data with the same `c0`
    (∀ {lstsq : Lstsq}, IsLstsq lstsq → ∀ {roots : List ℝ} {bc : ℝ → Fin 3 → ℂ} {ex : Option (ℝ → ℝ → ℂ)} {res : RunResult n},
      psRun iter s ap fit roots bc lstsq ex = .ok res → ∀ {c1 : List ℂ} {ε : ℝ}, c1.length = p + 2 * q →
      NearExact s (.full res.c0 c1) u ε → ∃ d, defect n iter s ap res.c0 res.c1 = .ok d ∧ √d ≤ rate ε) ∧
    -- for the exact boundary data, in terms of the `n`-th derivatives of the data
    ∀ {M : Fin 3 → Fin 2 → ℝ} {ε : ℝ}, 4 ≤ p → 4 ≤ q → p ≤ 1024 → q ≤ 1024 → ContDiff ℝ (max p q + 1 : ℕ) u →
      (∀ sid i, ∀ x ∈ enlarged s.eps probA probR sid, ‖iteratedDeriv (nBasisBySid p q sid) (cauchyData u probA r sid i) x‖ ≤ M sid i) →
      (∀ sid i, dataErr (nBasisBySid p q sid) (M sid i) (halfWidth s.eps probA probR sid) ≤ ε) →
      (∀ {lstsq : Lstsq}, IsLstsq lstsq → ∀ {ex : Option (ℝ → ℝ → ℂ)} {res : RunResult n},
        psRun iter s ap fit (chebRoots 1024) (fun x sid => cauchyData u probA r sid 0 x) lstsq ex = .ok res →
        ∃ d, defect n iter s ap res.c0 res.c1 = .ok d ∧ √d ≤ rate ε) ∧
      ∃ residual m, qResidual iter s ap fit (chebRoots 1024) (fun x sid => cauchyData u probA r sid 0 x)
          (fun x sid => cauchyData u probA r sid 1 x) = .ok (residual, m) ∧
        residual.length = s.G.unionGamma.length ∧ √(residual.map fun x => x ^ 2).sum ≤ rate ε ∧
        IsGreatest {x | x ∈ residual} m ∧ m ≤ rate ε

/-- the two parts of C84 from the bounds of C81 and C82 -/
theorem residual_rate {iter : Iter} {b : Brentq} {n : ℕ} {name : String} {r : ℝ → ℝ} (hname : chooseBoundary name = .ok r)
    {k eps : ℝ} (heps : 0 < eps) {p q : ℕ} (hp : 1 ≤ p) (hq : 1 ≤ q) {s : PSolver} {u : ℝ × ℝ → ℂ} {T : ℝ} {δ : ℝ → ℝ}
    (hS : ShippedSolver s b n r k eps p q) (A : Approx iter n s u T δ) {rate : ℝ → ℝ}
    (hrate : ∀ {ap : Arr n}, initApSolF n iter s = .ok ap → ∀ {c0 c1 : List ℂ}, c0.length = p + 2 * q → c1.length = p + 2 * q →
      ∀ {ε : ℝ}, NearExact s (.full c0 c1) u ε → ∃ d, defect n iter s ap c0 c1 = .ok d ∧ √d ≤ rate ε) :
    ResidualRate iter n s r u p q rate := by
  intro ap hap fit hfit
  have hpi := pi_pos
  have Tm := chooseBoundary_tame hname
  have ea : s.e.a = probA := by rw [hS.env]; rfl
  have eR : s.e.R = probR := by rw [hS.env]; rfl
  have er : s.e.evalR = r := by rw [hS.env]; rfl
  have hbl : s.bas.bDesc.length = p + 2 * q := by rw [hS.bas, C40_length]
  have first : ∀ {lstsq : Lstsq}, IsLstsq lstsq → ∀ {roots : List ℝ} {bc : ℝ → Fin 3 → ℂ} {ex : Option (ℝ → ℝ → ℂ)} {res : RunResult n},
      psRun iter s ap fit roots bc lstsq ex = .ok res → ∀ {c1 : List ℂ} {ε : ℝ}, c1.length = p + 2 * q →
      NearExact s (.full res.c0 c1) u ε → ∃ d, defect n iter s ap res.c0 res.c1 = .ok d ∧ √d ≤ rate ε := by
    intro lstsq hlsq roots bc ex res hrun c1 ε l1 hex
    obtain ⟨h0, d, hd, hmin⟩ := run_minimal A hS.nonempty hp hq hS.bas hfit hlsq hap hrun
    obtain ⟨extF, hF⟩ := A.inhomo
    obtain ⟨l0, -⟩ := run_parts (by rw [A.order]; exact A.setup) A.ready hp hq hS.bas hF hfit hlsq hrun
    obtain ⟨d1, hd1, hb⟩ := hrate hap (l0.trans hbl) l1 hex
    obtain ⟨d2, hd2, hle⟩ := hmin c1 l1
    obtain rfl : d1 = d2 := Except.ok.inj (hd1.symm.trans hd2)
    exact ⟨d, hd, (Real.sqrt_le_sqrt hle).trans hb⟩
  refine ⟨first, ?_⟩
  intro M ε hp4 hq4 hp' hq' hu hM hε
  obtain ⟨c0, c1, l0, l1, h0, h1, hex⟩ := C84_data (s := s) (by rw [hS.eps]; exact heps) (by rw [ea]; unfold probA; linarith)
    (by rw [eR]; unfold probR; norm_num) (by rw [ea, eR, hS.eps]; exact halfWidth_shipped heps) hfit hp4 hq4 hp' hq' hS.bas hu
    (by rw [er]; exact chooseBoundary_smooth hname _) (by rw [er]; exact Tm.regular) (M := M) (by rw [ea, eR, er]; exact hM)
    (ε := ε) (by rw [ea, eR]; exact hε)
  have h0' := h0
  have h1' := h1
  rw [ea, eR, er] at h0' h1'
  constructor
  · intro lstsq hlsq ex res hrun
    obtain ⟨g0, -⟩ := run_minimal A hS.nonempty hp hq hS.bas hfit hlsq hap hrun
    rw [ea, eR] at g0
    obtain rfl : c0 = res.c0 := Except.ok.inj (h0'.symm.trans g0)
    exact first hlsq hrun l1 hex
  · obtain ⟨d, hd, hb⟩ := hrate hap l0 l1 hex
    obtain ⟨extF, hF⟩ := A.inhomo
    have hB : s.bas.bDesc ≠ [] := by
      intro h
      rw [h] at hbl
      simp at hbl
      omega
    obtain ⟨res, m, g1, g2, g3, g4, g5⟩ := residual_le (by rw [A.order]; exact A.setup) A.ready hS.nonempty hB hF (ap := ap)
      (fit := fit) (roots := chebRoots 1024) (bc := fun x sid => cauchyData u probA r sid 0 x)
      (du := fun x sid => cauchyData u probA r sid 1 x) (by rw [ea, eR]; exact h0') (by rw [ea, eR]; exact h1') (l0.trans hbl.symm)
      (l1.trans hbl.symm) hd
    exact ⟨res, m, g1, g2, by rw [g3]; exact hb, g4, g5.trans hb⟩

/-- **C84** the residual of a homogeneous problem on a shipped boundary. -/
theorem C84_homogeneous {name : String} {r : ℝ → ℝ} (hname : chooseBoundary name = .ok r) {k : ℝ}
    (hk : k = smoothK ∨ k = ihK ∨ k = quadK ∨ k = 1) {u : ℝ × ℝ → ℂ} (hu : ContDiff ℝ 6 u) (hpde : HelmholtzPlane k u) :
    ∃ C, 0 ≤ C ∧ ∀ {iter : Iter}, IsIter iter → ∀ {b : Brentq}, BrentqSpec b → ∀ {n : ℕ}, 16 ≤ n + 1 → ∀ {eps : ℝ}, 0 < eps →
      ∀ {source : Source}, source.homogeneous = true → (∀ x y, source.f x y = 0) → ∀ {p q : ℕ}, 1 ≤ p → 1 ≤ q →
      ∀ {s : PSolver}, psInit iter (mkEnv b (n + 1) probAD probA probR r) 4 k eps p q source = .ok s →
      ResidualRate iter n s r u p q fun ε => C * (ε * ((n : ℝ) + 1) ^ 3 + 1 / ((n : ℝ) + 1) ^ 2) := by
  obtain ⟨D, hD, hA⟩ := approx_homogeneous hname hk hu hpde
  obtain ⟨C, hC, h⟩ := defect_rate hk hu hD
  refine ⟨C, hC, ?_⟩
  intro iter hit b hb n hN eps heps source hh hf0 p q hp hq s hs
  obtain ⟨hS, A⟩ := hA hit hb hN heps hh hf0 hp hq hs
  refine residual_rate hname heps hp hq hS A fun {ap} hap {c0 c1} l0 l1 {ε} hex => ?_
  have := h le_rfl hS A hap l0 l1 hex
  simpa using this

/-- **C84** the residual of an inhomogeneous problem on a shipped boundary. -/
theorem C84_inhomogeneous {name : String} {r : ℝ → ℝ} (hname : chooseBoundary name = .ok r) {k : ℝ}
    (hk : k = smoothK ∨ k = ihK ∨ k = quadK ∨ k = 1) {u φ : ℝ × ℝ → ℂ} (hu : ContDiff ℝ 6 u) (hφ : ContDiff ℝ 3 φ)
    (hpde : HelmholtzSource k u φ) :
    ∃ C, 0 ≤ C ∧ ∀ {iter : Iter}, IsIter iter → ∀ {b : Brentq}, BrentqSpec b → ∀ {n : ℕ}, 16 ≤ n + 1 →
      (∀ (i j : ℤ) (t : ℝ), probA / 2 ≤ t → t ≤ 2 * π + probA / 2 → getCoord probAD (n + 1) i j ≠ polarPoint (r t) t) →
      ∀ {eps : ℝ}, 0 < eps → ∀ {source : Source} {η : ℝ}, SrcOf source φ η → ∀ {p q : ℕ}, 1 ≤ p → 1 ≤ q →
      ∀ {s : PSolver}, psInit iter (mkEnv b (n + 1) probAD probA probR r) 4 k eps p q source = .ok s →
      ResidualRate iter n s r u p q fun ε => C * (ε * ((n : ℝ) + 1) ^ 3 + 1 / ((n : ℝ) + 1) ^ 2 + η * ((n : ℝ) + 1)) := by
  obtain ⟨D, hD, hA⟩ := approx_source hname hk hu hφ hpde
  obtain ⟨C, hC, h⟩ := defect_rate hk hu hD
  refine ⟨C, hC, ?_⟩
  intro iter hit b hb n hN hoff eps heps source η hsrc p q hp hq s hs
  obtain ⟨hS, A⟩ := hA hit hb hN hoff heps hsrc hp hq hs
  exact residual_rate hname heps hp hq hS A fun {ap} hap {c0 c1} l0 l1 {ε} hex => h hsrc.nonneg hS A hap l0 l1 hex

/-- **C84** the boundary data of the smooth problems, as the program computes it, is the Cauchy data of the expected solution. -/
theorem C84_smooth_data {k : ℝ} {u : ℝ → ℝ → ℂ} {grad : ℝ → ℝ → Py (ℂ × ℂ)} {f : ℝ → ℝ → ℂ} (h : SmoothConsistent k u grad f)
    (hu : Differentiable ℝ fun q : ℝ × ℝ => u q.1 q.2) (evalR : ℝ → ℝ) (a arg : ℝ) (sid : Fin 3) :
    smoothEvalBc u evalR a arg sid = .ok (cauchyData (fun q => u q.1 q.2) a evalR sid 0 arg) ∧
    smoothDUOut grad evalR a arg sid = .ok (cauchyData (fun q => u q.1 q.2) a evalR sid 1 arg) := by
  constructor
  · obtain ⟨h0, h1, h2, -⟩ := C56_bc u evalR a arg
    fin_cases sid
    · exact h0
    · exact h1
    · exact h2
  · obtain ⟨d, hd, hder⟩ := C56_normal h evalR a arg sid.2
    rw [hd]
    congr 1
    have key : ∀ P v : ℝ × ℝ, HasDerivAt (fun t : ℝ => u (P.1 + t * v.1) (P.2 + t * v.2))
        (fderiv ℝ (fun q : ℝ × ℝ => u q.1 q.2) P v) 0 := by
      intro P v
      have hc : HasDerivAt (fun t : ℝ => P + t • v) v 0 := by
        simpa using ((hasDerivAt_id (0 : ℝ)).smul_const v).const_add P
      have hf : HasFDerivAt (fun q : ℝ × ℝ => u q.1 q.2) (fderiv ℝ (fun q : ℝ × ℝ => u q.1 q.2) P) (P + (0 : ℝ) • v) := by
        rw [zero_smul, add_zero]; exact (hu P).hasFDerivAt
      exact hf.comp_hasDerivAt 0 hc
    have := hder.unique (key _ _)
    rw [this]
    fin_cases sid <;> rfl

/-- nothing in C84 is empty: on every shipped boundary the run for the plane wave with twelve basis functions per segment and the
program's own boundary data ends, and its residual is within the bound, with constants that do not depend on the grid -/
example {name : String} {r : ℝ → ℝ} (hname : chooseBoundary name = .ok r) : ∃ C ε : ℝ, ∀ {iter : Iter}, IsIter iter →
    ∀ {b : Brentq}, BrentqSpec b → ∀ {n : ℕ}, 16 ≤ n + 1 → ∀ {source : Source}, source.homogeneous = true →
    (∀ x y, source.f x y = 0) → ∀ {fit : Chebfit} {lstsq : Lstsq}, IsChebfit fit → IsLstsq lstsq →
    ∃ (s : PSolver) (ap : Arr n) (bc : ℝ → Fin 3 → ℂ) (res : RunResult n) (d : ℝ),
      (∀ x (sid : Fin 3), smoothEvalBc (fun x y => (eExpected smoothK x y).1) r probA x sid = .ok (bc x sid)) ∧
      psRun iter s ap fit (chebRoots 1024) bc lstsq none = .ok res ∧ defect n iter s ap res.c0 res.c1 = .ok d ∧
      √d ≤ C * (ε * ((n : ℝ) + 1) ^ 3 + 1 / ((n : ℝ) + 1) ^ 2) := by
  obtain ⟨w1, w2⟩ := planeWave_helmholtz smoothK
  obtain ⟨C, -, h⟩ := C84_homogeneous hname (Or.inl rfl) w1 w2
  set u : ℝ × ℝ → ℂ := fun q => (eExpected smoothK q.1 q.2).1 with hu
  have hsm : ContDiff ℝ (max 12 12 + 1 : ℕ) u := by
    unfold eExpected at hu
    rw [hu]
    simp only []
    refine Complex.contDiff_exp.comp (contDiff_const.mul ?_)
    have : ContDiff ℝ (max 12 12 + 1 : ℕ) fun q : ℝ × ℝ => 4 / 5 * smoothK * q.1 + 3 / 5 * smoothK * q.2 := by fun_prop
    exact Complex.ofRealCLM.contDiff.comp this
  have hM : ∀ sid i, ∃ M, ∀ x ∈ enlarged 1 probA probR sid, ‖iteratedDeriv (nBasisBySid 12 12 sid) (cauchyData u probA r sid i) x‖ ≤ M := by
    intro sid i
    have hc := cauchyData_contDiff hsm probA (chooseBoundary_smooth hname _) (chooseBoundary_tame hname).regular sid i
    have hcomp : IsCompact (enlarged 1 probA probR sid) := by
      unfold enlarged
      split <;> exact isCompact_Icc
    have hle : nBasisBySid 12 12 sid ≤ max 12 12 := by unfold nBasisBySid; split <;> omega
    exact hcomp.exists_bound_of_continuousOn (hc.continuous_iteratedDeriv _ (by exact_mod_cast hle)).continuousOn
  choose M hM using hM
  refine ⟨C, ∑ sid, ∑ i, |dataErr (nBasisBySid 12 12 sid) (M sid i) (halfWidth 1 probA probR sid)|,
    fun {iter} hit {b} hb {n} hN {source} hh hf0 {fit lstsq} hfit hlsq => ?_⟩
  obtain ⟨s, hs, f, hf, ap, res, hap, hrun, -⟩ := C77_shipped hit hb hN (Or.inr rfl) hname (k := smoothK) (eps := 1)
    (C78_shipped n (order := 4) (Or.inr rfl)).1 hh (p := 12) (q := 12) (by norm_num) (by norm_num) hfit hlsq (chebRoots 1024)
    (fun x sid => cauchyData u probA r sid 0 x) none
  have he : s.eps = 1 := by
    obtain ⟨G, S⟩ := setup_shipped hit hb hN (Or.inr rfl) hname (C78_shipped n (order := 4) (Or.inr rfl)).1
    rw [psInit_ok S.built] at hs
    cases hs
    rfl
  obtain ⟨d, hd, hb'⟩ := (((h hit hb hN one_pos hh hf0 (by norm_num) (by norm_num) hs) hap hfit).2 (M := M)
    (ε := ∑ sid, ∑ i, |dataErr (nBasisBySid 12 12 sid) (M sid i) (halfWidth 1 probA probR sid)|) (by norm_num) (by norm_num)
    (by norm_num) (by norm_num) hsm (by rw [he]; exact hM) (fun sid i => by
      rw [he]
      refine (le_abs_self _).trans ?_
      refine (single_le_sum (f := fun i => |dataErr (nBasisBySid 12 12 sid) (M sid i) (halfWidth 1 probA probR sid)|)
        (fun _ _ => abs_nonneg _) (mem_univ i)).trans ?_
      exact single_le_sum (f := fun sid => ∑ i, |dataErr (nBasisBySid 12 12 sid) (M sid i) (halfWidth 1 probA probR sid)|)
        (fun _ _ => sum_nonneg fun _ _ => abs_nonneg _) (mem_univ sid))).1 hlsq hrun
  refine ⟨s, ap, _, res, d, fun x sid => ?_, hrun, hd, hb'⟩
  exact (C84_smooth_data (C56_e smoothK) (w1.differentiable (by norm_num)) r probA x sid).1

end Pot
