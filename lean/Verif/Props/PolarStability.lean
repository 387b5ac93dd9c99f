import Verif.Props.PolarSolvable
import Verif.Props.PolarFDScripts
import Verif.Props.MainZData

/-! # C113: how far the solution of `ps/polarfd.py` is from the solution of the differential equation -/

namespace Pot
open Real Finset Spec
open scoped ContDiff

/-- C49 on a whole grid: what the scheme makes of a solution of the differential equation -/
theorem polar_truncation {Ω : Set (ℝ × ℝ)} {U F : ℕ → ℕ → ℝ × ℝ → ℂ} (hU : JetOn Ω 6 U) (hF : JetOn Ω 2 F) {p : PolarFD} {d : PfData}
    (he : PolarHelmholtz Ω d.k U (F 0 0)) (h0 : ∀ q ∈ Ω, q.1 ≠ 0)
    (hf : ∀ r th, (r, th) ∈ Ω → d.f r th = F 0 0 (r, th) ∧ d.dFr r th = F 1 0 (r, th) ∧ d.d2Fr r th = F 2 0 (r, th) ∧
      d.d2Fth r th = F 0 2 (r, th)) {M K : ℝ} (hr : 0 < p.hr) (ht : 0 < p.hth) (hR : 0 < p.R0)
    (hbox : ∀ r th, p.R0 ≤ r → r ≤ p.R0 + p.N * p.hr → p.a ≤ th → th ≤ p.a + p.N * p.hth →
      (r, th) ∈ Ω ∧ ∀ i j, i + j ≤ 6 → ‖U i j (r, th)‖ ≤ M) (hK1 : 1 ≤ K) (hK : p.R0⁻¹ ≤ K)
    {m l : ℕ} (m0 : 0 < m) (m1 : m < p.N) (l0 : 0 < l) (l1 : l < p.N) :
    ‖polarL4 p.hr p.hth d.k p.rho (fun m l => U 0 0 (p.getR m, p.getTh l)) m l - fd4Rhs p d m l‖ ≤
      3 * (M * K ^ 6 * (1 + d.k ^ 2)) * (p.hr ^ 4 + p.hth ^ 4) := by
  have hm0 : (1 : ℝ) ≤ m := by exact_mod_cast m0
  have hm1 : (m : ℝ) + 1 ≤ p.N := by exact_mod_cast m1
  have hl0 : (1 : ℝ) ≤ l := by exact_mod_cast l0
  have hl1 : (l : ℝ) + 1 ≤ p.N := by exact_mod_cast l1
  have b1 : ∀ s, |s| ≤ p.hr → p.R0 ≤ p.getR (m : ℤ) + s ∧ p.getR (m : ℤ) + s ≤ p.R0 + p.N * p.hr := by
    intro s hs
    obtain ⟨q1, q2⟩ := abs_le.1 hs
    unfold PolarFD.getR
    push_cast
    constructor <;> nlinarith
  have b2 : ∀ w, |w| ≤ p.hth → p.a ≤ p.getTh (l : ℤ) + w ∧ p.getTh (l : ℤ) + w ≤ p.a + p.N * p.hth := by
    intro s hs
    obtain ⟨q1, q2⟩ := abs_le.1 hs
    unfold PolarFD.getTh
    push_cast
    constructor <;> nlinarith
  have n0 : ∀ s, |s| ≤ p.hr → 0 < p.getR (m : ℤ) + s := fun s hs => hR.trans_le (b1 s hs).1
  have hs1 : p.getR ((m : ℤ) + 1 : ℝ) = p.getR (m : ℤ) + p.hr := by unfold PolarFD.getR; ring
  have hs2 : p.getR ((m : ℤ) - 1 : ℝ) = p.getR (m : ℤ) + -p.hr := by unfold PolarFD.getR; ring
  rw [← C49_scheme p d.k m l hr.ne' ht.ne' (by simpa using (n0 0 (by simpa using hr.le)).ne')
    (by rw [hs2]; exact (n0 _ (by rw [abs_neg, abs_of_pos hr])).ne') (by rw [hs1]; exact (n0 _ (by rw [abs_of_pos hr])).ne')]
  have := C49_consistency hU hF p d he h0 hf (m := m) (l := l) (M := M) (K := K) hr ht
    (fun s w hs hw => (hbox _ _ (b1 s hs).1 (b1 s hs).2 (b2 w hw).1 (b2 w hw).2).1)
    (fun i j hij s w hs hw => (hbox _ _ (b1 s hs).1 (b1 s hs).2 (b2 w hw).1 (b2 w hw).2).2 i j hij)
    (fun s hs => ⟨n0 s hs, (inv_anti₀ hR (b1 s hs).1).trans hK⟩) hK1
  exact this

/-- **C113** stability and consistency give convergence: if the scheme is stable with the constants `κ`, `κ'`, and `U` solves the
differential equation with the data of `solve`, up to an error `β` on the two circles, then the array of `solve` differs from `U` at the inner
nodes by at most `κ` times the bound of C49 plus `κ' β`. -/
theorem C113_error {spsolve : Spsolve} {p : PolarFD} {d : PfData} {κ κ' : ℝ} (hS : SchemeStable p.hr p.hth d.k p.rho p.N κ κ')
    {Ω : Set (ℝ × ℝ)} {U F : ℕ → ℕ → ℝ × ℝ → ℂ} (hU : JetOn Ω 6 U) (hF : JetOn Ω 2 F)
    (he : PolarHelmholtz Ω d.k U (F 0 0)) (h0 : ∀ q ∈ Ω, q.1 ≠ 0)
    (hf : ∀ r th, (r, th) ∈ Ω → d.f r th = F 0 0 (r, th) ∧ d.dFr r th = F 1 0 (r, th) ∧ d.d2Fr r th = F 2 0 (r, th) ∧
      d.d2Fth r th = F 0 2 (r, th)) {M K β : ℝ} (hN : 1 ≤ p.N) (hr : 0 < p.hr) (ht : 0 < p.hth) (hR : 0 < p.R0)
    (hbox : ∀ r th, p.R0 ≤ r → r ≤ p.R0 + p.N * p.hr → p.a ≤ th → th ≤ p.a + p.N * p.hth →
      (r, th) ∈ Ω ∧ ∀ i j, i + j ≤ 6 → ‖U i j (r, th)‖ ≤ M) (hK1 : 1 ≤ K) (hK : p.R0⁻¹ ≤ K)
    (hray : ∀ m : ℕ, m ≤ p.N → d.phi2 (p.R0 + m * p.hr) = U 0 0 (p.R0 + m * p.hr, p.a) ∧
      d.phi1 (p.R0 + m * p.hr) = U 0 0 (p.R0 + m * p.hr, p.a + p.N * p.hth)) (hβ : 0 ≤ β)
    (hcirc : ∀ l : ℕ, 0 < l → l < p.N → ‖d.phiInit (p.a + l * p.hth) - U 0 0 (p.R0, p.a + l * p.hth)‖ ≤ β ∧
      ‖d.phi0 (p.a + l * p.hth) - U 0 0 (p.R0 + p.N * p.hr, p.a + l * p.hth)‖ ≤ β)
    (hsp : ∀ s, pfSystem p d = .ok s → PfSolves s (spsolve s.entries s.rhs)) :
    ∃ z, pfSolve spsolve p d = .ok z ∧ ∀ m l : ℕ, 0 < m → m < p.N → 0 < l → l < p.N → ∃ v, pfArray p z m l = .ok v ∧
      ‖v - U 0 0 (p.R0 + m * p.hr, p.a + l * p.hth)‖ ≤ κ * (3 * (M * K ^ 6 * (1 + d.k ^ 2)) * (p.hr ^ 4 + p.hth ^ 4)) + κ' * β := by
  have hr0 : ∀ m : ℕ, m ≤ p.N → p.getR m ≠ 0 := fun m _ => by
    change p.R0 + (m : ℝ) * p.hr ≠ 0
    positivity
  obtain ⟨z, hz, V, hV, hb, hin⟩ := C48_solve spsolve p d hN hr.ne' ht.ne' hr0 hsp
  refine ⟨z, hz, fun m l m0 m1 l0 l1 => ⟨_, hV m l m1.le l1.le, ?_⟩⟩
  have hM : 0 ≤ M := (norm_nonneg _).trans ((hbox p.R0 p.a le_rfl (by nlinarith [(Nat.cast_nonneg p.N : (0 : ℝ) ≤ p.N)]) le_rfl
    (by nlinarith [(Nat.cast_nonneg p.N : (0 : ℝ) ≤ p.N)])).2 0 0 (by norm_num))
  have key := hS (fun m l => V m l + (-1) * U 0 0 (p.getR m, p.getTh l)) (3 * (M * K ^ 6 * (1 + d.k ^ 2)) * (p.hr ^ 4 + p.hth ^ 4)) β
    (by positivity) hβ (fun m hm => by
      have e1 := hb m 0 hm (by omega) (by simp)
      have e2 := hb m p.N hm le_rfl (by simp)
      simp only [polarBc, if_true] at e1
      rw [polarBc, if_neg (by omega), if_pos rfl] at e2
      rw [(hray m hm).1] at e1
      rw [(hray m hm).2] at e2
      have g1 : (p.getR ((m : ℕ) : ℤ), p.getTh ((0 : ℤ) : ℝ)) = (p.R0 + m * p.hr, p.a) := by unfold PolarFD.getR PolarFD.getTh; push_cast; simp
      have g2 : (p.getR ((m : ℕ) : ℤ), p.getTh ((p.N : ℤ) : ℝ)) = (p.R0 + m * p.hr, p.a + p.N * p.hth) := by
        unfold PolarFD.getR PolarFD.getTh; push_cast; rfl
      rw [g1, g2, e2]
      constructor
      · rw [show V m 0 = _ from e1]; ring
      · ring)
    (fun l l0 l1 => by
      have e1 := hb 0 l (by omega) l1.le (by simp)
      have e2 := hb p.N l le_rfl l1.le (by simp)
      rw [polarBc, if_neg (by omega), if_neg (by omega), if_pos rfl] at e1
      rw [polarBc, if_neg (by omega), if_neg (by omega), if_neg (by omega)] at e2
      have g1 : (p.getR ((0 : ℤ) : ℝ), p.getTh ((l : ℕ) : ℤ)) = (p.R0, p.a + l * p.hth) := by unfold PolarFD.getR PolarFD.getTh; push_cast; simp
      have g2 : (p.getR ((p.N : ℤ) : ℝ), p.getTh ((l : ℕ) : ℤ)) = (p.R0 + p.N * p.hr, p.a + l * p.hth) := by
        unfold PolarFD.getR PolarFD.getTh; push_cast; rfl
      rw [g1, g2, e2, show V 0 l = _ from e1, neg_one_mul, ← sub_eq_add_neg, neg_one_mul, ← sub_eq_add_neg]
      exact hcirc l l0 l1)
    (fun m l m0 m1 l0 l1 => by
      rw [polarL4_add, polarL4_smul p.hr p.hth d.k p.rho (-1) fun m l => U 0 0 (p.getR m, p.getTh l), hin m l m0 m1 l0 l1, neg_one_mul,
        ← sub_eq_add_neg, norm_sub_rev]
      exact polar_truncation hU hF he h0 hf hr ht hR hbox hK1 hK m0 m1 l0 l1) m l m0 m1 l0 l1
  have g : (p.getR ((m : ℕ) : ℤ), p.getTh ((l : ℕ) : ℤ)) = (p.R0 + m * p.hr, p.a + l * p.hth) := by unfold PolarFD.getR PolarFD.getTh; push_cast; rfl
  rw [g, neg_one_mul, ← sub_eq_add_neg] at key
  exact key

theorem zArcR_eq (bname : String) : zArcR bname - 1 / 10 = (arcCells bname : ℝ) / 40 ∧
    (arcCells bname = 88 ∨ arcCells bname = 94 ∨ arcCells bname = 108 ∨ arcCells bname = 89 ∨ arcCells bname = 91) := by
  unfold zArcR probR bet0 arcCells
  split
  · norm_num
  · norm_num
  · norm_num
  · norm_num
  · rename_i h1 h2 h3 h4
    split
    · exact (h1 rfl).elim
    · exact (h2 rfl).elim
    · exact (h3 rfl).elim
    · exact (h4 rfl).elim
    · norm_num

/-- the shipped polar grid -/
theorem shipped_grid (bname : String) (n : ℕ) : ∃ p, pfInit (2 ^ n) probA probNu zR0 (zArcR bname) = .ok p ∧ p.N = 2 ^ n ∧ p.a = π / 4 ∧
    p.R0 = 1 / 10 ∧ p.hr = (zArcR bname - 1 / 10) / (2 ^ n : ℕ) ∧ p.hth = (2 * π - π / 4) / (2 ^ n : ℕ) ∧ 0 < p.hr ∧ 0 < p.hth := by
  have hpi := pi_pos
  have hR0 : zR0 = 1 / 10 := by unfold zR0; norm_num
  obtain ⟨e, hD⟩ := zArcR_eq bname
  have D0 : (0 : ℝ) < arcCells bname := by rcases hD with h | h | h | h | h <;> rw [h] <;> norm_num
  refine ⟨_, if_neg (by positivity), rfl, rfl, hR0, ?_, rfl, ?_, ?_⟩
  · rw [hR0]
  · dsimp only
    rw [hR0, e]
    positivity
  · dsimp only
    unfold probA
    have : 0 < 2 * π - π / 4 := by linarith
    positivity

/-- **C113** the scheme on the shipped polar grids of `1, 2, 4, …, 64` cells, for the shipped wave numbers: stable with the constants of the
table, and so is every one of its first seven angular modes with the (smaller) constants of the second table. -/
theorem C113_stable (bname : String) {n K : ℕ} (hn : n ≤ 6) (hK : K = 27 ∨ K = 43) :
    ∃ p, pfInit (2 ^ n) probA probNu zR0 (zArcR bname) = .ok p ∧
      SchemeStable p.hr p.hth (K / 4) p.rho p.N ((shippedStab (arcCells bname) K).getD n (0, 0)).1 ((shippedStab (arcCells bname) K).getD n (0, 0)).2 ∧
      ∀ j, 0 < j → j < 2 ^ n → j ≤ 7 → ModeStable p.hr p.hth (K / 4) p.rho p.N j (((shippedLow (arcCells bname) K).getD n (0, 0)).1 / 10)
        (((shippedLow (arcCells bname) K).getD n (0, 0)).2 / 10) := by
  obtain ⟨p, hp, hN, ha, hR0, hr, ht, -, -⟩ := shipped_grid bname n
  obtain ⟨e, hD⟩ := zArcR_eq bname
  have e1 : p.hr = arcCells bname / 40 / 2 ^ n := by rw [hr, e]; push_cast; rfl
  have e2 : p.hth = 7 * π / 4 / 2 ^ n := by rw [ht]; push_cast; ring
  have e3 : ∀ m : ℤ, p.rho m = 1 / 10 + m * p.hr := fun m => by rw [← hR0]; rfl
  refine ⟨p, hp, ?_, fun j j0 j1 j7 => ?_⟩
  · rw [hN]
    exact scheme_cert hn hD hK e1 e2 rfl e3
  · rw [hN]
    exact low_cert hn hD hK e1 e2 rfl e3 j0 j1 j7

/-- **C113** so on these grids every solution of the differential equation is approximated with an explicit error by the array that `solve`
computes from its data, if the linear solver returns the solution of every system that has exactly one. -/
theorem C113_shipped {spsolve : Spsolve} (hsp : DirectSolver spsolve) (bname : String) {n K : ℕ} (hn : n ≤ 6) (hK : K = 27 ∨ K = 43) {d : PfData}
    (hk : d.k = K / 4) {Ω : Set (ℝ × ℝ)} {U F : ℕ → ℕ → ℝ × ℝ → ℂ} (hU : JetOn Ω 6 U) (hF : JetOn Ω 2 F)
    (he : PolarHelmholtz Ω d.k U (F 0 0)) (h0 : ∀ q ∈ Ω, q.1 ≠ 0)
    (hf : ∀ r th, (r, th) ∈ Ω → d.f r th = F 0 0 (r, th) ∧ d.dFr r th = F 1 0 (r, th) ∧ d.d2Fr r th = F 2 0 (r, th) ∧
      d.d2Fth r th = F 0 2 (r, th)) {M β : ℝ}
    (hbox : ∀ r th, 1 / 10 ≤ r → r ≤ zArcR bname → π / 4 ≤ th → th ≤ 2 * π → (r, th) ∈ Ω ∧ ∀ i j, i + j ≤ 6 → ‖U i j (r, th)‖ ≤ M)
    (hray : ∀ r, 1 / 10 ≤ r → r ≤ zArcR bname → d.phi2 r = U 0 0 (r, π / 4) ∧ d.phi1 r = U 0 0 (r, 2 * π)) (hβ : 0 ≤ β)
    (hcirc : ∀ th, π / 4 ≤ th → th ≤ 2 * π → ‖d.phiInit th - U 0 0 (1 / 10, th)‖ ≤ β ∧ ‖d.phi0 th - U 0 0 (zArcR bname, th)‖ ≤ β) :
    ∃ p z, pfInit (2 ^ n) probA probNu zR0 (zArcR bname) = .ok p ∧ pfSolve spsolve p d = .ok z ∧
      ∀ m l : ℕ, 0 < m → m < 2 ^ n → 0 < l → l < 2 ^ n → ∃ v, pfArray p z m l = .ok v ∧
        ‖v - U 0 0 (polarPt (π / 4) (1 / 10) (zArcR bname) (2 ^ n) m l)‖ ≤
          ((shippedStab (arcCells bname) K).getD n (0, 0)).1 * (3 * (M * 10 ^ 6 * (1 + d.k ^ 2)) *
            (((zArcR bname - 1 / 10) / (2 ^ n : ℕ)) ^ 4 + ((2 * π - π / 4) / (2 ^ n : ℕ)) ^ 4)) + ((shippedStab (arcCells bname) K).getD n (0, 0)).2 * β := by
  have hpi := pi_pos
  obtain ⟨p, hp, hN, ha, hR0, hr, ht, r0, t0⟩ := shipped_grid bname n
  obtain ⟨p', hp', hS, -⟩ := C113_stable bname hn hK
  rw [hp] at hp'
  cases hp'
  have N0 : (0 : ℝ) < (2 ^ n : ℕ) := by positivity
  have f1 : p.R0 + p.N * p.hr = zArcR bname := by rw [hR0, hN, hr, mul_div_cancel₀ _ N0.ne']; ring
  have f2 : p.a + p.N * p.hth = 2 * π := by rw [ha, hN, ht, mul_div_cancel₀ _ N0.ne']; ring
  rw [← hk] at hS
  have g1 : ∀ {m : ℕ}, m ≤ p.N → 1 / 10 ≤ p.R0 + m * p.hr ∧ p.R0 + m * p.hr ≤ zArcR bname := by
    intro m hm
    have hm' : (m : ℝ) ≤ p.N := by exact_mod_cast hm
    rw [← f1, hR0]
    constructor
    · have : 0 ≤ (m : ℝ) * p.hr := by positivity
      linarith
    · gcongr
  have g2 : ∀ {l : ℕ}, l ≤ p.N → π / 4 ≤ p.a + l * p.hth ∧ p.a + l * p.hth ≤ 2 * π := by
    intro m hm
    have hm' : (m : ℝ) ≤ p.N := by exact_mod_cast hm
    rw [← f2, ha]
    constructor
    · have : 0 ≤ (m : ℝ) * p.hth := by positivity
      linarith
    · gcongr
  obtain ⟨z, hz, h⟩ := C113_error (spsolve := spsolve) hS hU hF he h0 hf (M := M) (K := 10) (β := β) (by rw [hN]; exact Nat.one_le_two_pow) r0 t0
    (by rw [hR0]; norm_num) (fun r th h1 h2 h3 h4 => hbox r th (hR0 ▸ h1) (f1 ▸ h2) (ha ▸ h3) (f2 ▸ h4)) (by norm_num)
    (by rw [hR0]; norm_num) (fun m hm => by
      rw [f2, ha]
      exact hray _ (g1 hm).1 (g1 hm).2) hβ (fun l _ l1 => by
      rw [f1, hR0]
      exact hcirc _ (g2 l1.le).1 (g2 l1.le).2) (fun s hs => by
      obtain ⟨p', hp', s', hs', hu⟩ := C112_shipped bname hn (d := d)
        (by rcases hK with rfl | rfl
            · left; rw [hk, ihK]; norm_num
            · right; rw [hk, quadK]; norm_num)
      rw [hp] at hp'
      cases hp'
      rw [hs] at hs'
      cases hs'
      exact hsp s hu)
  refine ⟨p, z, hp, hz, fun m l m0 m1 l0 l1 => ?_⟩
  obtain ⟨v, hv, hb⟩ := h m l m0 (by rw [hN]; exact m1) l0 (by rw [hN]; exact l1)
  refine ⟨v, hv, ?_⟩
  have e : polarPt (π / 4) (1 / 10) (zArcR bname) (2 ^ n) m l = (p.R0 + m * p.hr, p.a + l * p.hth) := by
    rw [hR0, hr, ha, ht]; rfl
  rw [e, ← hr, ← ht]
  exact hb

/-! ## The error that `runz.py` prints -/

/-- all derivatives of a sine of frequency at most one are at most one -/
theorem iter_deriv_sin_le {c : ℝ} (hc : |c| ≤ 1) (a : ℝ) (j : ℕ) (th : ℝ) : |deriv^[j] (fun th => sin (c * (th - a))) th| ≤ 1 := by
  have e : ∀ j : ℕ, deriv^[j] (fun th => sin (c * (th - a))) = fun th => c ^ j * sin (c * (th - a) + j * (π / 2)) := by
    intro j
    induction j with
    | zero => simp
    | succ j ih =>
      rw [Function.iterate_succ_apply', ih]
      funext th
      have h : HasDerivAt (fun th => c * (th - a) + j * (π / 2)) c th := by
        simpa using (((hasDerivAt_id th).sub_const a).const_mul c).add_const (j * (π / 2))
      rw [(h.sin.const_mul (c ^ j)).deriv, Nat.cast_succ, show c * (th - a) + (j + 1 : ℝ) * (π / 2) = c * (th - a) + j * (π / 2) + π / 2 by ring,
        sin_add_pi_div_two, pow_succ]
      ring
  rw [e, abs_mul, abs_pow]
  exact mul_le_one₀ (pow_le_one₀ (abs_nonneg _) hc) (abs_nonneg _) (abs_sin_le_one _)

theorem jetOn_add_smul {Ω : Set (ℝ × ℝ)} {n : ℕ} {U W : ℕ → ℕ → ℝ × ℝ → ℂ} (hU : JetOn Ω n U) (hW : JetOn Ω n W) (c : ℂ) :
    JetOn Ω n fun i j q => U i j q + c * W i j q := by
  refine ⟨hU.isOpen, fun i j hij p hp => ?_⟩
  refine ((hU.diff i j hij p hp).add ((hW.diff i j hij p hp).const_mul c)).congr_fderiv ?_
  ext <;> simp [grad2]

/-- a singular function is a solution -/
theorem singular_helmholtz {mu k : ℝ} (hmu : 0 ≤ mu) (hk : 0 < k) (a : ℝ) :
    ContDiffOn ℝ ∞ (fun r => besselJ mu (k * r)) (Set.Ioi 0) ∧ ContDiff ℝ ∞ (fun th => sin (mu * (th - a))) ∧
    PolarHelmholtz {p : ℝ × ℝ | 0 < p.1} k (prodJet (fun r => besselJ mu (k * r)) fun th => sin (mu * (th - a))) 0 := by
  have hg : ContDiffOn ℝ ∞ (fun r => besselJ mu (k * r)) (Set.Ioi 0) :=
    (besselJ_contDiffOn hmu).comp (by fun_prop) fun x hx => by
      have : (0:ℝ) < x := hx
      show (0:ℝ) < k * x
      positivity
  refine ⟨hg, by fun_prop, ?_⟩
  rintro ⟨r, th⟩ hr
  have hr : 0 < r := hr
  have h1 := (bessel_helmholtz (a := a) hr.ne' (C76_bessel hmu (by positivity : 0 < k * r)) th).helmOp_eq
  rw [(HelmholtzAt.mode k mu a (twiceAt_of_contDiffOn hg hr) th).helmOp_eq] at h1
  have hs : deriv (deriv fun th => sin (mu * (th - a))) th = -mu ^ 2 * sin (mu * (th - a)) := (TwiceAt.sin mu a th).deriv2_eq
  have h2 : deriv (deriv fun r => besselJ mu (k * r)) r * sin (mu * (th - a)) + deriv (fun r => besselJ mu (k * r)) r * sin (mu * (th - a)) / r
      + besselJ mu (k * r) * deriv (deriv fun th => sin (mu * (th - a))) th / r ^ 2 + k ^ 2 * (besselJ mu (k * r) * sin (mu * (th - a))) = 0 := by
    rw [← h1, hs]
    field_simp
    ring
  have h3 := congrArg (fun x : ℝ => (x : ℂ)) h2
  simp only [prodJet, Function.iterate_succ, Function.iterate_zero, Function.comp_apply, id_eq]
  push_cast at h3 ⊢
  exact h3

/-- the sine sum of the arc has its own coefficients -/
theorem circleCoef_sines {N : ℕ} (hN : 8 ≤ N) (e : ℕ → ℂ) (c : ℕ → ℝ) {j : ℕ} (hj : j < 7) :
    circleCoef N (fun l => e l - ((∑ i ∈ range 7, c i * sin (π * (i + 1) * l / N) : ℝ) : ℂ)) j = circleCoef N e j - c j := by
  obtain ⟨n, rfl⟩ : ∃ n, N = n + 1 := ⟨N - 1, by omega⟩
  unfold circleCoef
  simp only [sub_mul, sum_sub_distrib, mul_sub]
  congr 1
  have hn : ((n : ℝ) + 1) ≠ 0 := by positivity
  rw [sum_Ico_eq_sum_range, Nat.add_sub_cancel]
  have key : ∑ l ∈ range n, (∑ i ∈ range 7, c i * S n i l) * S n j l = c j * (((n : ℝ) + 1) / 2) := by
    simp only [sum_mul, mul_assoc]
    rw [sum_comm]
    simp only [← mul_sum]
    rw [sum_congr rfl fun i hi => by rw [S_orth n i j (by rw [mem_range] at hi; omega) (by omega)]]
    simp [hj]
  have key' := congrArg (fun x : ℝ => (x : ℂ)) key
  have e1 : ∀ i l : ℕ, sin (π * ((i : ℝ) + 1) * ((1 + l : ℕ) : ℝ) / ((n + 1 : ℕ) : ℝ)) = S n i l := by
    intro i l
    unfold S
    push_cast
    rw [add_comm (1 : ℝ)]
  simp only [e1]
  have hc : ((n : ℂ) + 1) ≠ 0 := by exact_mod_cast hn
  push_cast at key' ⊢
  rw [key']
  field_simp

/-- **C113** the error of `v` that `runz.py` prints for a grid of 8, 16, 32 or 64 cells.  Let `A` bound the derivatives up to the sixth order
of the Bessel functions in the solution between the two circles, and let `β` bound the first seven sine coefficients of the error of the data
that the program uses on the two circles: ten terms of the series instead of the solution on the inner circle, the coefficients `z1` instead of
those of the solution minus `g + q` on the outer one.  Then the number printed is at most a constant times the truncation error plus a
constant times `β`, with the constants of the table.  (The two rays contribute nothing, and neither do the higher modes.) -/
theorem C113_printed {iter : Iter} {lib : ZLib} (hsp : DirectSolver lib.spsolve)
    (hjv : ∀ x, 0 < x → lib.jv (2 / 7) x = besselJ (2 / 7) x ∧ lib.jv (6 / 7) x = besselJ (6 / 7) x) {name : String} {zp : ZProblem}
    (hzp : (zTable lib.jv).lookup name = some zp) {bname : String} {r : ℝ → ℝ} {order : ℕ} {z1 : List ℝ} {size : ℕ × ℕ} {n e : ℕ} (he3 : 3 ≤ e)
    (he : e ≤ 6) (hn : n + 1 = 2 ^ e) {v : List (List ℂ)} {ev : ℝ} {u : Arr n} {eu : Option ℝ}
    (h : ZGridOutcome iter lib zp bname r order false z1 size v ev u eu) {A β : ℝ}
    (hA : ∀ i ≤ 6, ∀ r, 1 / 10 ≤ r → r ≤ zArcR bname → |deriv^[i] (fun r => besselJ (2 / 7) (zp.k * r)) r| ≤ A ∧
      |deriv^[i] (fun r => besselJ (6 / 7) (zp.k * r)) r| ≤ A)
    (hβ0 : ∀ j < 7, ‖circleCoef (n + 1) (fun l => ((zp.evalV (1 / 10) (polarPt (π / 4) (1 / 10) (zArcR bname) (n + 1) 0 l).2 -
      zp.vSeries (1 / 10) (polarPt (π / 4) (1 / 10) (zArcR bname) (n + 1) 0 l).2 : ℝ) : ℂ)) j‖ ≤ β)
    (hβ1 : ∀ j < 7, ‖circleCoef (n + 1) (fun l => ((zp.evalV (zArcR bname) (polarPt (π / 4) (1 / 10) (zArcR bname) (n + 1) 0 l).2 -
      (zp.g (zArcR bname) (polarPt (π / 4) (1 / 10) (zArcR bname) (n + 1) 0 l).2 +
        zQ zp.k (π / 4) zp.g (zArcR bname) (polarPt (π / 4) (1 / 10) (zArcR bname) (n + 1) 0 l).2) : ℝ) : ℂ)) j - (z1.getD j 0 : ℝ)‖ ≤ β) :
    ev ≤ ((shippedLow (arcCells bname) (if name = "ihz-bessel-quadratic" then 43 else 27)).getD e (0, 0)).1 / 5 *
        (3 * ((if name = "ihz-bessel-quadratic" then 2 * A else A) * 10 ^ 6 * (1 + zp.k ^ 2)) *
          (((zArcR bname - 1 / 10) / (n + 1 : ℕ)) ^ 4 + ((2 * π - π / 4) / (n + 1 : ℕ)) ^ 4)) +
      ((shippedLow (arcCells bname) (if name = "ihz-bessel-quadratic" then 43 else 27)).getD e (0, 0)).2 / 10 * β := by
  have hpi := pi_pos
  obtain ⟨V, hent, hbd, hcirc, hin⟩ := C112_runz hsp hzp he hn h
  obtain ⟨V0, F, d, ex, φ, ⟨-, -, hent0⟩, ⟨⟨m, j, m0, m1, j7, hev⟩, -⟩, -⟩ := h
  have hVV : ∀ l ∈ Ico 1 (n + 1), V0 m l = V m l := fun l hl => by
    have h1 := hent0 m l m1.le (mem_Ico.1 hl).2.le
    rw [hent m l m1.le (mem_Ico.1 hl).2.le] at h1
    exact (Except.ok.inj h1).symm
  obtain ⟨cons, -, hk, hv, -⟩ := C91_problems lib.jv hzp
  have N8 : 8 ≤ n + 1 := by
    rw [hn]
    calc 8 = 2 ^ 3 := rfl
      _ ≤ 2 ^ e := Nat.pow_le_pow_right (by norm_num) he3
  obtain ⟨p, hp, hN, ha, hR0, hr, ht, r0, t0⟩ := shipped_grid bname e
  set quad := name = "ihz-bessel-quadratic" with hq
  obtain ⟨p', hp', -, hmode⟩ := C113_stable bname he (K := if quad then 43 else 27) (by split <;> simp)
  rw [hp] at hp'
  cases hp'
  have hkK : (((if quad then 43 else 27 : ℕ) : ℕ) : ℝ) / 4 = zp.k := by rw [hk]; split <;> norm_num
  rw [hkK] at hmode
  rw [← hn] at hN hr ht hmode
  have k0 : 0 < zp.k := by rw [hk]; split <;> norm_num
  have N0 : (0 : ℝ) < (n + 1 : ℕ) := by positivity
  have f1 : p.R0 + p.N * p.hr = zArcR bname := by rw [hR0, hN, hr, mul_div_cancel₀ _ N0.ne']; ring
  have f2 : p.a + p.N * p.hth = 2 * π := by rw [ha, hN, ht, mul_div_cancel₀ _ N0.ne']; ring
  -- the solution
  set c : ℝ := if quad then 1 else 0 with hc
  have c0 : |c| = c := abs_of_nonneg (by rw [hc]; split <;> norm_num)
  obtain ⟨a1, a2, a3⟩ := singular_helmholtz (mu := 2 / 7) (by norm_num) k0 (π / 4)
  obtain ⟨b1, b2, b3⟩ := singular_helmholtz (mu := 6 / 7) (by norm_num) k0 (2 * π)
  set U : ℕ → ℕ → ℝ × ℝ → ℂ := fun i j q => prodJet (fun r => besselJ (2 / 7) (zp.k * r)) (fun th => sin (2 / 7 * (th - π / 4))) i j q +
    (c : ℂ) * prodJet (fun r => besselJ (6 / 7) (zp.k * r)) (fun th => sin (6 / 7 * (th - 2 * π))) i j q with hU
  have U0 : ∀ r th, 0 < r → U 0 0 (r, th) = (zp.evalV r th : ℂ) := by
    intro r th hr
    have hx : 0 < zp.k * r := by positivity
    rw [hv, (hjv _ hx).1, (hjv _ hx).2]
    simp only [hU, hc, prodJet, Function.iterate_zero, id_eq]
    split <;> push_cast <;> ring
  have UH : PolarHelmholtz {p : ℝ × ℝ | 0 < p.1} (zeroData zp.k).k U 0 := by
    intro q hq
    have h1 := a3 q hq
    have h2 := b3 q hq
    simp only [hU, Pi.zero_apply] at h1 h2 ⊢
    change _ + ((zp.k : ℝ) : ℂ) ^ 2 * _ = _
    linear_combination h1 + (c : ℂ) * h2
  have UB : ∀ r th, 1 / 10 ≤ r → r ≤ zArcR bname → ∀ i j, i + j ≤ 6 → ‖U i j (r, th)‖ ≤ if quad then 2 * A else A := by
    intro r th h1 h2 i j hij
    obtain ⟨q1, q2⟩ := hA i (by omega) r h1 h2
    have g1 : ‖prodJet (fun r => besselJ (2 / 7) (zp.k * r)) (fun th => sin (2 / 7 * (th - π / 4))) i j (r, th)‖ ≤ A := by
      rw [prodJet, Complex.norm_real, norm_mul, norm_eq_abs, norm_eq_abs]
      calc _ ≤ A * 1 := mul_le_mul q1 (iter_deriv_sin_le (by norm_num [abs_le]) _ j th) (abs_nonneg _) ((abs_nonneg _).trans q1)
        _ = A := mul_one A
    have g2 : ‖prodJet (fun r => besselJ (6 / 7) (zp.k * r)) (fun th => sin (6 / 7 * (th - 2 * π))) i j (r, th)‖ ≤ A := by
      rw [prodJet, Complex.norm_real, norm_mul, norm_eq_abs, norm_eq_abs]
      calc _ ≤ A * 1 := mul_le_mul q2 (iter_deriv_sin_le (by norm_num [abs_le]) _ j th) (abs_nonneg _) ((abs_nonneg _).trans q2)
        _ = A := mul_one A
    refine (norm_add_le _ _).trans ?_
    rw [norm_mul, Complex.norm_real, norm_eq_abs, c0, hc]
    split
    · linarith
    · linarith
  have A0 : 0 ≤ if quad then 2 * A else A := by
    have hR : 1 / 10 ≤ zArcR bname := by rw [← f1, hR0]; have : 0 ≤ (p.N : ℝ) * p.hr := by positivity
                                         linarith
    exact (norm_nonneg _).trans (UB (1 / 10) 0 le_rfl hR 0 0 (by norm_num))
  generalize (if quad then 2 * A else A) = M at UB A0 ⊢
  set τ : ℝ := 3 * (M * 10 ^ 6 * (1 + zp.k ^ 2)) * (((zArcR bname - 1 / 10) / (n + 1 : ℕ)) ^ 4 + ((2 * π - π / 4) / (n + 1 : ℕ)) ^ 4) with hτ
  have τ0 : 0 ≤ τ := by positivity
  have β0 : 0 ≤ β := (norm_nonneg _).trans (hβ0 0 (by norm_num))
  -- the error
  set W : ℤ → ℤ → ℂ := fun m l => U 0 0 (p.getR m, p.getTh l) + (-1) * V m l with hW
  have hpt : ∀ m l : ℕ, (p.getR ((m : ℤ) : ℝ), p.getTh ((l : ℤ) : ℝ)) = polarPt (π / 4) (1 / 10) (zArcR bname) (n + 1) m l := by
    intro m l
    unfold PolarFD.getR PolarFD.getTh polarPt
    rw [hR0, ha, hr, ht]
    push_cast
    rfl
  have hpos : ∀ m l : ℕ, 0 < (polarPt (π / 4) (1 / 10) (zArcR bname) (n + 1) m l).1 := by
    intro m l
    change 0 < 1 / 10 + (m : ℝ) * ((zArcR bname - 1 / 10) / (n + 1 : ℕ))
    rw [← hr]
    positivity
  have hWv : ∀ m l : ℕ, W m l = (zp.evalV (polarPt (π / 4) (1 / 10) (zArcR bname) (n + 1) m l).1
      (polarPt (π / 4) (1 / 10) (zArcR bname) (n + 1) m l).2 : ℂ) - V m l := by
    intro m l
    simp only [hW]
    rw [hpt, ← U0 _ _ (hpos m l), neg_one_mul, ← sub_eq_add_neg]
  have hray : ∀ m : ℕ, m ≤ n + 1 → W m 0 = 0 ∧ W m (n + 1 : ℕ) = 0 := by
    intro m hm
    obtain ⟨h1, h2⟩ := hbd m hm
    have e1 : (polarPt (π / 4) (1 / 10) (zArcR bname) (n + 1) m 0).2 = π / 4 := by simp [polarPt]
    have e2 : (polarPt (π / 4) (1 / 10) (zArcR bname) (n + 1) m (n + 1)).2 = 2 * π := by
      change π / 4 + ((n + 1 : ℕ) : ℝ) * ((2 * π - π / 4) / (n + 1 : ℕ)) = _
      rw [mul_div_cancel₀ _ N0.ne']
      ring
    constructor
    · have := hWv m 0
      rw [e1, cons.v2 _ (hpos m 0)] at this
      rw [show W m 0 = _ from this, show V m ((0 : ℕ) : ℤ) = _ from h1, sub_self]
    · rw [hWv m (n + 1), e2, cons.v1 _ (hpos m (n + 1)), h2, sub_self]
  have hres : ∀ m l : ℕ, 0 < m → m < n + 1 → 0 < l → l < n + 1 → ‖polarL4 p.hr p.hth zp.k p.rho W m l‖ ≤ τ := by
    intro m l m0 m1 l0 l1
    have hz := hin m l m0 m1 l0 l1
    have er : (fun m : ℤ => 1 / 10 + (m : ℝ) * ((zArcR bname - 1 / 10) / (n + 1 : ℕ))) = p.rho := by
      funext m
      rw [← hr, ← hR0]
      rfl
    rw [er, ← hr, ← ht] at hz
    have htr := polar_truncation (prodJet_jetOn a1 a2 6 |> fun h1 => jetOn_add_smul h1 (prodJet_jetOn b1 b2 6) (c : ℂ))
      (F := fun _ _ => 0) (p := p) (d := zeroData zp.k)
      ⟨isOpen_lt continuous_const continuous_fst, fun i j _ q _ => (hasFDerivAt_const (0 : ℂ) q).congr_fderiv (by ext <;> simp [grad2])⟩
      UH (fun q hq => (show (0 : ℝ) < q.1 from hq).ne') (fun _ _ _ => ⟨rfl, rfl, rfl, rfl⟩) (M := M) (K := 10) r0 t0 (by rw [hR0]; norm_num)
      (fun r th h1 h2 _ _ => ⟨lt_of_lt_of_le (by rw [hR0]; norm_num) h1, UB r th (hR0 ▸ h1) (f1 ▸ h2)⟩) (by norm_num) (by rw [hR0]; norm_num)
      m0 (by rw [hN]; exact m1) l0 (by rw [hN]; exact l1)
    rw [fd4Rhs_zero, sub_zero] at htr
    rw [polarL4_add, polarL4_smul p.hr p.hth zp.k p.rho (-1) V, hz, mul_zero, add_zero, hτ, ← hr, ← ht]
    exact htr
  -- its sine coefficients
  set w : ℤ → ℂ := fun m => ∑ i ∈ range (n + 1 - 1), W m (i + 1 : ℕ) * (sin (π * (j + 1 : ℕ) * (i + 1 : ℕ) / (n + 1 : ℕ)) : ℝ) with hw
  have hcc : ∀ m : ℤ, circleCoef (n + 1) (fun l => W m l) j = 2 / ((n + 1 : ℕ) : ℂ) * w m := by
    intro m
    unfold circleCoef
    rw [hw, sum_Ico_eq_sum_range]
    congr 1
    refine sum_congr rfl fun i _ => ?_
    rw [add_comm 1 i]
    push_cast
    rfl
  have hccN : ∀ m : ℤ, ‖w m‖ = ((n + 1 : ℕ) : ℝ) / 2 * ‖circleCoef (n + 1) (fun l => W m l) j‖ := by
    intro m
    rw [hcc, norm_mul, norm_div, Complex.norm_natCast, Complex.norm_ofNat]
    field_simp
  have congrC : ∀ {f g : ℕ → ℂ}, (∀ l ∈ Ico 1 (n + 1), f l = g l) → circleCoef (n + 1) f j = circleCoef (n + 1) g j := by
    intro f g h
    unfold circleCoef
    rw [sum_congr rfl fun l hl => by rw [h l hl]]
  have w0 : ‖w 0‖ ≤ ((n + 1 : ℕ) : ℝ) / 2 * β := by
    rw [hccN]
    refine mul_le_mul_of_nonneg_left ?_ (by positivity)
    rw [congrC (g := fun l => ((zp.evalV (1 / 10) (polarPt (π / 4) (1 / 10) (zArcR bname) (n + 1) 0 l).2 -
      zp.vSeries (1 / 10) (polarPt (π / 4) (1 / 10) (zArcR bname) (n + 1) 0 l).2 : ℝ) : ℂ)) fun l hl => ?_]
    · exact hβ0 j j7
    · obtain ⟨l0, l1⟩ := mem_Ico.1 hl
      have := hWv 0 l
      rw [(by simp [polarPt] : (polarPt (π / 4) (1 / 10) (zArcR bname) (n + 1) 0 l).1 = 1 / 10)] at this
      rw [show W 0 l = _ from this, show V ((0 : ℕ) : ℤ) l = _ from (hcirc l l0 l1).1]
      push_cast
      rfl
  have wN : ‖w (n + 1 : ℕ)‖ ≤ ((n + 1 : ℕ) : ℝ) / 2 * β := by
    rw [hccN]
    refine mul_le_mul_of_nonneg_left ?_ (by positivity)
    have h1 := hβ1 j j7
    rw [← circleCoef_sines N8 _ (fun i => z1.getD i 0) j7] at h1
    rw [congrC fun l hl => ?_]
    · exact h1
    · obtain ⟨l0, l1⟩ := mem_Ico.1 hl
      have := hWv (n + 1) l
      have e1 : (polarPt (π / 4) (1 / 10) (zArcR bname) (n + 1) (n + 1) l).1 = zArcR bname := by
        change 1 / 10 + ((n + 1 : ℕ) : ℝ) * ((zArcR bname - 1 / 10) / (n + 1 : ℕ)) = _
        rw [mul_div_cancel₀ _ N0.ne']
        ring
      have e2 : (polarPt (π / 4) (1 / 10) (zArcR bname) (n + 1) (n + 1) l).2 = (polarPt (π / 4) (1 / 10) (zArcR bname) (n + 1) 0 l).2 := rfl
      have e3 : ∀ i : ℕ, ((i : ℝ) + 1) * (4 / 7) * ((polarPt (π / 4) (1 / 10) (zArcR bname) (n + 1) 0 l).2 - π / 4) = π * (i + 1) * l / (n + 1 : ℕ) := by
        intro i
        change ((i : ℝ) + 1) * (4 / 7) * (π / 4 + (l : ℝ) * ((2 * π - π / 4) / (n + 1 : ℕ)) - π / 4) = _
        ring
      rw [e1, (hcirc l l0 l1).2, e2] at this
      simp only [e3] at this
      rw [this]
      push_cast
      ring
  have hb : ‖w m‖ ≤ _ := (hN ▸ hmode (j + 1) (by omega) (by omega) (by omega) : ModeStable p.hr p.hth zp.k p.rho (n + 1) (j + 1) _ _) w
    ((n + 1 : ℕ) * τ) (((n + 1 : ℕ) : ℝ) / 2 * β) (by positivity) (by positivity) w0 wN
    (fun m m0 m1 => by
      rw [hw, modeL_sum t0.ne' (j + 1) W m0 m1 hray]
      refine (sine_coef_bound (n := n + 1 - 1) (fun i => polarL4 p.hr p.hth zp.k p.rho W m (i + 1 : ℕ)) τ0
        (fun i hi => hres m (i + 1) m0 m1 (by omega) (by omega)) _).trans ?_
      refine mul_le_mul_of_nonneg_right ?_ τ0
      rw [Nat.add_sub_cancel]
      push_cast
      linarith) m m0 m1
  have hev' : ev = 2 / ((n + 1 : ℕ) : ℝ) * ‖w m‖ := by
    rw [hccN, hev, congrC fun l hl => (by rw [hWv, ← hVV l hl] : _ = W m l)]
    field_simp
  rw [hev']
  refine (mul_le_mul_of_nonneg_left hb (by positivity)).trans (le_of_eq ?_)
  field_simp
  ring

/-! ## Examples -/

/-- 16 cells, the arc, `k = 27/4`: the constants are 18 and 103 -/
example : ∃ p, pfInit 16 probA probNu zR0 (zArcR "arc") = .ok p ∧ SchemeStable p.hr p.hth (27 / 4) p.rho p.N 18 103 := by
  obtain ⟨p, hp, hS, -⟩ := C113_stable "arc" (n := 4) (K := 27) (by norm_num) (by simp)
  refine ⟨p, hp, ?_⟩
  have e : (shippedStab (arcCells "arc") 27).getD 4 (0, 0) = (18, 103) := by decide
  rw [e] at hS
  simpa using hS

/-- derivatives of Bessel functions between the circles are bounded -/
theorem bessel_bound {mu k : ℝ} (hmu : 0 ≤ mu) (hk : 0 < k) (R : ℝ) :
    ∃ A, 0 ≤ A ∧ ∀ i ≤ 6, ∀ r, 1 / 10 ≤ r → r ≤ R → |deriv^[i] (fun r => besselJ mu (k * r)) r| ≤ A :=
  iter_deriv_bound isOpen_Ioi (singular_helmholtz hmu hk 0).1 (fun x hx => lt_of_lt_of_le (by norm_num) hx.1) 6

/-- the data of the singular function of order `2/7` -/
noncomputable def singularData (k R : ℝ) : PfData where
  k := k
  f := 0
  dFr := 0
  d2Fr := 0
  d2Fth := 0
  phiInit th := ((besselJ (2 / 7) (k * (1 / 10)) * sin (2 / 7 * (th - π / 4)) : ℝ) : ℂ)
  phi0 th := ((besselJ (2 / 7) (k * R) * sin (2 / 7 * (th - π / 4)) : ℝ) : ℂ)
  phi1 r := ((besselJ (2 / 7) (k * r) * sin (2 / 7 * (2 * π - π / 4)) : ℝ) : ℂ)
  phi2 r := ((besselJ (2 / 7) (k * r) * sin (2 / 7 * (π / 4 - π / 4)) : ℝ) : ℂ)

/-- the hypotheses of `C113_shipped` with the singular function of order `2/7`: one constant for the seven grids -/
example {spsolve : Spsolve} (hsp : DirectSolver spsolve) : ∃ C, ∀ n ≤ 6, ∃ p z, pfInit (2 ^ n) probA probNu zR0 (zArcR "arc") = .ok p ∧
    pfSolve spsolve p (singularData (27 / 4) (zArcR "arc")) = .ok z ∧
    ∀ m l : ℕ, 0 < m → m < 2 ^ n → 0 < l → l < 2 ^ n → ∃ v, pfArray p z m l = .ok v ∧
      ‖v - ((besselJ (2 / 7) (27 / 4 * (polarPt (π / 4) (1 / 10) (zArcR "arc") (2 ^ n) m l).1) *
          sin (2 / 7 * ((polarPt (π / 4) (1 / 10) (zArcR "arc") (2 ^ n) m l).2 - π / 4)) : ℝ) : ℂ)‖ ≤
        ((shippedStab 88 27).getD n (0, 0)).1 * (C * (((zArcR "arc" - 1 / 10) / (2 ^ n : ℕ)) ^ 4 + ((2 * π - π / 4) / (2 ^ n : ℕ)) ^ 4)) := by
  obtain ⟨A, hA0, hA⟩ := bessel_bound (mu := 2 / 7) (k := 27 / 4) (by norm_num) (by norm_num) (zArcR "arc")
  obtain ⟨a1, a2, a3⟩ := singular_helmholtz (mu := 2 / 7) (k := 27 / 4) (by norm_num) (by norm_num) (π / 4)
  refine ⟨3 * (A * 10 ^ 6 * (1 + (27 / 4) ^ 2)), fun n hn => ?_⟩
  obtain ⟨p, z, hp, hz, h⟩ := C113_shipped hsp "arc" hn (K := 27) (by simp) (d := singularData (27 / 4) (zArcR "arc"))
    (by simp [singularData]) (prodJet_jetOn a1 a2 6) (F := fun _ _ => 0)
    ⟨isOpen_lt continuous_const continuous_fst, fun i j _ q _ => (hasFDerivAt_const (0 : ℂ) q).congr_fderiv (by ext <;> simp [grad2])⟩
    a3 (fun q hq => (show (0 : ℝ) < q.1 from hq).ne') (fun _ _ _ => ⟨rfl, rfl, rfl, rfl⟩) (M := A) (β := 0)
    (fun r th h1 h2 _ _ => ⟨lt_of_lt_of_le (by norm_num) h1, fun i j hij => by
      rw [prodJet, Complex.norm_real, norm_mul, norm_eq_abs, norm_eq_abs]
      calc _ ≤ A * 1 := mul_le_mul (hA i (by omega) r h1 h2) (iter_deriv_sin_le (by norm_num [abs_le]) _ j th) (abs_nonneg _) hA0
        _ = A := mul_one A⟩)
    (fun r _ _ => ⟨rfl, rfl⟩) le_rfl (fun th _ _ => by
      constructor
      · exact (norm_eq_zero.2 (sub_self _)).le
      · exact (norm_eq_zero.2 (sub_self _)).le)
  refine ⟨p, z, hp, hz, fun m l m0 m1 l0 l1 => ?_⟩
  obtain ⟨v, hv, hb⟩ := h m l m0 m1 l0 l1
  rw [mul_zero, add_zero] at hb
  exact ⟨v, hv, hb⟩

/-- the bound `A` of `C113_printed` exists for every shipped problem and boundary -/
example {jv : ℝ → ℝ → ℝ} {name : String} {zp : ZProblem} (hzp : (zTable jv).lookup name = some zp) (bname : String) :
    ∃ A, ∀ i ≤ 6, ∀ r, 1 / 10 ≤ r → r ≤ zArcR bname → |deriv^[i] (fun r => besselJ (2 / 7) (zp.k * r)) r| ≤ A ∧
      |deriv^[i] (fun r => besselJ (6 / 7) (zp.k * r)) r| ≤ A := by
  have k0 : 0 < zp.k := by rw [(C91_problems jv hzp).2.2.1]; split <;> norm_num
  obtain ⟨A, -, hA⟩ := bessel_bound (mu := 2 / 7) (by norm_num) k0 (zArcR bname)
  obtain ⟨B, -, hB⟩ := bessel_bound (mu := 6 / 7) (by norm_num) k0 (zArcR bname)
  exact ⟨max A B, fun i hi r h1 h2 => ⟨(hA i hi r h1 h2).trans (le_max_left _ _), (hB i hi r h1 h2).trans (le_max_right _ _)⟩⟩

end Pot
