import Verif.Props.Curves
import Verif.Proofs.PiTranscendental
import Verif.Model.Smooth
import Verif.Model.Singular
import Mathlib.NumberTheory.Niven

/-! # Property C78: no resonance for the shipped square

The side `AD_len = 2π` is transcendental, the wavenumbers of the shipped problems are rational, and the eigenvalues of the
difference operators depend on both through `h²k²` only. -/

namespace Pot
open Real Spec

theorem algebraic_cos (j N : ℕ) : IsAlgebraic ℚ (cos (π * j / N)) := by
  have h := Real.isAlgebraic_cos_rat_mul_pi ((j : ℚ) / N)
  have e : (((j : ℚ) / N : ℚ) : ℝ) * π = π * j / N := by push_cast; ring
  rw [e] at h
  exact h.extendScalars (algebraMap ℤ ℚ).injective_int

theorem algebraic_ratCast (q : ℚ) : IsAlgebraic ℚ (q : ℝ) := isAlgebraic_algebraMap (R := ℚ) (A := ℝ) q

/-- an algebraic multiple of a power of π is not algebraic unless it is zero -/
theorem not_algebraic_pi_mul {s : ℝ} (hs : IsAlgebraic ℚ s) (hs0 : s ≠ 0) : ¬ IsAlgebraic ℚ (s * π ^ 2) := by
  intro h
  have h1 : IsAlgebraic ℚ (π ^ 2) := by
    have : π ^ 2 = s⁻¹ * (s * π ^ 2) := by field_simp
    rw [this]
    exact hs.inv.mul h
  exact transcendental_pi (h1.of_pow (by norm_num))

/-- **C78** if the side of the auxiliary square is an algebraic multiple of π and the wavenumber is algebraic, no eigenvalue of
the difference operator is zero, on any grid. -/
theorem C78_no_resonance {n order : ℕ} (ho : order = 2 ∨ order = 4) {s k : ℝ} (hs : IsAlgebraic ℚ s) (hs0 : s ≠ 0)
    (hk : IsAlgebraic ℚ k) : NoZeroEig n order (s * π) k := by
  rw [noZeroEig_iff ho]
  intro p q h
  have hc : ∀ p : Fin n, cos (π * ((p + 1 : ℕ) : ℝ) / ((n + 1 : ℕ) : ℝ)) < 1 ∧
      -1 ≤ cos (π * ((p + 1 : ℕ) : ℝ) / ((n + 1 : ℕ) : ℝ)) := by
    intro p
    refine ⟨?_, neg_one_le_cos _⟩
    have hn : (0:ℝ) < ((n + 1 : ℕ) : ℝ) := by positivity
    have h0 : 0 < π * ((p + 1 : ℕ) : ℝ) / ((n + 1 : ℕ) : ℝ) := by
      have := pi_pos; positivity
    have h1 : π * ((p + 1 : ℕ) : ℝ) / ((n + 1 : ℕ) : ℝ) ≤ π := by
      rw [div_le_iff₀ hn]
      apply mul_le_mul_of_nonneg_left _ pi_pos.le
      exact_mod_cast (by omega : (p : ℕ) + 1 ≤ n + 1)
    have := strictAntiOn_cos (Set.mem_Icc.2 ⟨le_rfl, pi_pos.le⟩) (Set.mem_Icc.2 ⟨h0.le, h1⟩) h0
    rwa [cos_zero] at this
  obtain ⟨h1, h1'⟩ := hc p
  obtain ⟨h2, h2'⟩ := hc q
  have a1 := algebraic_cos (p + 1) (n + 1)
  have a2 := algebraic_cos (q + 1) (n + 1)
  have hN : ((n + 1 : ℕ) : ℝ) ≠ 0 := by positivity
  have aN : IsAlgebraic ℚ (((n + 1 : ℕ) : ℝ)) := by
    have := algebraic_ratCast ((n + 1 : ℕ) : ℚ)
    rwa [Rat.cast_natCast] at this
  have hh : (s * π / ((n + 1 : ℕ) : ℝ)) ^ 2 ≠ 0 := by
    have := pi_ne_zero
    positivity
  unfold eigF at h
  generalize cos (π * ((p + 1 : ℕ) : ℝ) / ((n + 1 : ℕ) : ℝ)) = c1 at *
  generalize cos (π * ((q + 1 : ℕ) : ℝ) / ((n + 1 : ℕ) : ℝ)) = c2 at *
  -- in both cases `h²k²` times a positive algebraic number is a positive algebraic number
  have key : ∃ A B : ℝ, IsAlgebraic ℚ A ∧ IsAlgebraic ℚ B ∧ B ≠ 0 ∧ A ≠ 0 ∧
      (s * π / ((n + 1 : ℕ) : ℝ)) ^ 2 * k ^ 2 * B = A := by
    have a4 : ∀ m : ℕ, IsAlgebraic ℚ (m : ℝ) := fun m => by
      have := algebraic_ratCast (m : ℚ)
      rwa [Rat.cast_natCast] at this
    rcases ho with rfl | rfl
    · refine ⟨(4 : ℕ) - (2 : ℕ) * c1 - (2 : ℕ) * c2, 1, ?_, isAlgebraic_one, one_ne_zero, ?_, ?_⟩
      · exact ((a4 4).sub ((a4 2).mul a1)).sub ((a4 2).mul a2)
      · push_cast
        intro h0
        linarith
      · rw [if_pos rfl] at h
        field_simp at h
        push_cast at h ⊢
        field_simp
        linear_combination h
    · refine ⟨(20 : ℕ) - (4 : ℕ) * c1 * c2 - (8 : ℕ) * c1 - (8 : ℕ) * c2, c1 + c2 + (4 : ℕ), ?_, (a1.add a2).add (a4 4), ?_, ?_, ?_⟩
      · exact (((a4 20).sub (((a4 4).mul a1).mul a2)).sub ((a4 8).mul a1)).sub ((a4 8).mul a2)
      · push_cast
        intro h0
        linarith
      · push_cast
        intro h0
        nlinarith
      · rw [if_neg (by norm_num), div_eq_zero_iff] at h
        rcases h with h | h
        · push_cast at h ⊢
          linear_combination h
        · exact absurd h (mul_ne_zero (by norm_num) hh)
  obtain ⟨A, B, hA, hB, hB0, hA0, hE⟩ := key
  have hk0 : k ≠ 0 := by
    rintro rfl
    apply hA0
    rw [← hE]
    ring
  refine not_algebraic_pi_mul (s := (s * ((n + 1 : ℕ) : ℝ)⁻¹ * k) ^ 2) (((hs.mul aN.inv).mul hk).pow 2)
    (pow_ne_zero 2 (mul_ne_zero (mul_ne_zero hs0 (inv_ne_zero hN)) hk0)) ?_
  have e : (s * ((n + 1 : ℕ) : ℝ)⁻¹ * k) ^ 2 * π ^ 2 = A * B⁻¹ := by
    rw [← hE]
    field_simp
  rw [e]
  exact hA.mul hB.inv

/-- the shipped square and any rational wavenumber -/
theorem C78_rational (n : ℕ) {order : ℕ} (ho : order = 2 ∨ order = 4) (k : ℚ) : NoZeroEig n order probAD k :=
  C78_no_resonance ho (s := 2) (by simpa using algebraic_ratCast 2) (by norm_num) (algebraic_ratCast k)

/-- **C78** the wavenumbers of the shipped problems -/
theorem C78_shipped (n : ℕ) {order : ℕ} (ho : order = 2 ∨ order = 4) :
    NoZeroEig n order probAD smoothK ∧ NoZeroEig n order probAD ihK ∧ NoZeroEig n order probAD quadK ∧
    NoZeroEig n order probAD 1 := by
  refine ⟨?_, ?_, ?_, ?_⟩
  · have := C78_rational n ho (27 / 4); push_cast at this; exact this
  · have := C78_rational n ho (27 / 4); push_cast at this; exact this
  · have := C78_rational n ho (43 / 4); push_cast at this; exact this
  · have := C78_rational n ho 1; push_cast at this; exact this

/-- the hypothesis on the side is needed: with side 2 and the rational wavenumber 2 there is a resonance -/
example : ¬ NoZeroEig 1 2 2 2 := by
  rw [noZeroEig_iff (Or.inl rfl)]
  push Not
  refine ⟨0, 0, ?_⟩
  unfold eigF
  rw [if_pos rfl]
  norm_num

/-- **C77** with nothing assumed about the wavenumber but that it is rational: every homogeneous problem with every shipped
outer boundary runs to the end on every grid `N ≥ 16`. -/
theorem C77_no_resonance {iter : Iter} (hit : IsIter iter) {b : Brentq} (hb : BrentqSpec b) {n order : ℕ} (hN : 16 ≤ n + 1)
    (ho : order = 2 ∨ order = 4) {name : String} {r : ℝ → ℝ} (h : chooseBoundary name = .ok r) (k : ℚ) {eps : ℝ}
    {src : Source} (hh : src.homogeneous = true) {p q : ℕ} (hp : 1 ≤ p) (hq : 1 ≤ q)
    {fit : Chebfit} (hfit : IsChebfit fit) {lstsq : Lstsq} (hlsq : IsLstsq lstsq) (roots : List ℝ)
    (bc : ℝ → Fin 3 → ℂ) (ex : Option (ℝ → ℝ → ℂ)) :
    ∃ s : PSolver, psInit iter (mkEnv b (n + 1) probAD probA probR r) order k eps p q src = .ok s ∧
    ∃ f : Arr (n + 2), setupF iter s = .ok f ∧
    ∃ ap, ∃ res : RunResult n, initApSolF n iter s = .ok ap ∧ psRun iter s ap fit roots bc lstsq ex = .ok res ∧
      (∀ c d : Fin n, ((c : ℤ) + 1, (d : ℤ) + 1) ∈ s.G.Mplus →
        applyL (pad res.uAct) order probAD k c d = applyB f c d) ∧
      ∃ d, defect n iter s ap res.c0 res.c1 = .ok d ∧ ∀ c1 : List ℂ, c1.length = p + 2 * q →
        ∃ d', defect n iter s ap res.c0 c1 = .ok d' ∧ d ≤ d' :=
  C77_shipped hit hb hN ho h (C78_rational n ho k) hh hp hq hfit hlsq roots bc ex

end Pot
