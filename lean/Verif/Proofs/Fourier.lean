import Verif.Proofs.Dst
import Mathlib.LinearAlgebra.Matrix.Notation
import Mathlib.Data.Matrix.Mul

/-! # The Fourier form of the operator and of its inverse -/

namespace Pot
open Real Finset Matrix

/-- the eigenvalue formula as a total function (orders 2 and 4) -/
noncomputable def eigF (N order : ℕ) (AD k : ℝ) (j l : ℕ) : ℝ :=
  if order = 2 then
    k ^ 2 + (2 * cos (π * j / N) + 2 * cos (π * l / N) - 4) / (AD / N) ^ 2
  else
    ((AD / N) ^ 2 * k ^ 2 * (cos (π * j / N) + cos (π * l / N) + 4) +
      4 * cos (π * j / N) * cos (π * l / N) + 8 * cos (π * j / N) + 8 * cos (π * l / N) - 20) /
      (6 * (AD / N) ^ 2)

theorem eigF_symm (N order : ℕ) (AD k : ℝ) (j l : ℕ) :
    eigF N order AD k j l = eigF N order AD k l j := by
  unfold eigF; split_ifs <;> ring

theorem eigenvalPy_ok {N order : ℕ} {AD k : ℝ} (ho : order = 2 ∨ order = 4) (j l : ℕ) :
    eigenvalPy N order AD k j l = .ok (eigF N order AD k j l) := by
  rcases ho with rfl | rfl <;> simp [eigenvalPy, eigF]

theorem foldl_set (F : ℕ → ℕ → ℝ) (hF : ∀ p q, F p q = F q p) (L : List (ℕ × ℕ)) (e : ℕ → ℕ → ℝ)
    (p q : ℕ)
    (h : e p q = F (p + 1) (q + 1) ∨ ∃ jl ∈ L, (jl = (p + 1, q + 1) ∨ jl = (q + 1, p + 1)))
    (hL : ∀ jl ∈ L, 1 ≤ jl.1 ∧ 1 ≤ jl.2) :
    (L.foldl (fun e jl => setNat (setNat e (jl.1 - 1) (jl.2 - 1) (F jl.1 jl.2)) (jl.2 - 1) (jl.1 - 1)
      (F jl.1 jl.2)) e) p q = F (p + 1) (q + 1) := by
  induction L generalizing e with
  | nil => simpa using h
  | cons a L ih =>
    rw [List.foldl_cons]
    apply ih _ _ (fun jl hjl => hL jl (List.mem_cons_of_mem _ hjl))
    have ha := hL a (by simp)
    obtain ⟨a1, a2⟩ := a
    simp only at ha
    by_cases h1 : p = a2 - 1 ∧ q = a1 - 1
    · left
      simp only [setNat, h1, and_self, if_true]
      rw [hF]; congr 1 <;> omega
    · by_cases h2 : p = a1 - 1 ∧ q = a2 - 1
      · left
        simp only [setNat, if_neg h1, if_pos h2]
        congr 1 <;> omega
      · rcases h with h | ⟨jl, hjl, h⟩
        · left; simp only [setNat, if_neg h1, if_neg h2]; exact h
        · right
          rw [List.mem_cons] at hjl
          rcases hjl with hjl | hjl
          · exfalso
            subst hjl
            rcases h with h | h <;> simp only [Prod.mk.injEq] at h <;> omega
          · exact ⟨jl, hjl, h⟩

theorem mem_eigLoop {N : ℕ} {jl : ℕ × ℕ} :
    jl ∈ eigLoop N ↔ 1 ≤ jl.1 ∧ jl.1 < N ∧ 1 ≤ jl.2 ∧ jl.2 ≤ jl.1 := by
  obtain ⟨j, l⟩ := jl
  simp only [eigLoop, List.mem_flatMap, List.mem_range', List.mem_map, Prod.mk.injEq]
  constructor
  · rintro ⟨j', ⟨i, hi, rfl⟩, l', ⟨i', hi', rfl⟩, rfl, rfl⟩; omega
  · rintro ⟨h1, h2, h3, h4⟩
    exact ⟨j, ⟨j - 1, by omega, by omega⟩, l, ⟨l - 1, by omega, by omega⟩, rfl, rfl⟩

theorem calcEigenvals_ok {N order : ℕ} {AD k : ℝ} (ho : order = 2 ∨ order = 4) :
    ∃ e, calcEigenvals N order AD k = .ok e ∧
      ∀ p q, p + 1 < N → q + 1 < N → e p q = eigF N order AD k (p + 1) (q + 1) := by
  refine ⟨(eigLoop N).foldl (fun e jl => setNat (setNat e (jl.1 - 1) (jl.2 - 1)
    (eigF N order AD k jl.1 jl.2)) (jl.2 - 1) (jl.1 - 1) (eigF N order AD k jl.1 jl.2)) (fun _ _ => 0),
    ?_, ?_⟩
  · unfold calcEigenvals
    simp only [eigenvalPy_ok ho]
    exact List.foldlM_pure
  · intro p q hp hq
    apply foldl_set _ (eigF_symm N order AD k)
    · right
      rcases le_total q p with h | h
      · exact ⟨(p + 1, q + 1), mem_eigLoop.2 ⟨by simp, hp, by simp, by simpa using h⟩, Or.inl rfl⟩
      · exact ⟨(q + 1, p + 1), mem_eigLoop.2 ⟨by simp, hq, by simp, by simpa using h⟩, Or.inr rfl⟩
    · intro jl h; have := mem_eigLoop.1 h; exact ⟨this.1, this.2.2.1⟩

/-- for other orders the code raises `UnboundLocalError` as soon as there is an eigenvalue -/
theorem calcEigenvals_err {N order : ℕ} {AD k : ℝ} (h2 : order ≠ 2) (h4 : order ≠ 4) (hN : 2 ≤ N) :
    calcEigenvals N order AD k = .error .unboundLocalError := by
  have : eigLoop N = (1, 1) :: (eigLoop N).tail := by
    obtain ⟨m, rfl⟩ : ∃ m, N = m + 2 := ⟨N - 2, by omega⟩
    simp [eigLoop, List.range'_succ]
  unfold calcEigenvals
  rw [this, List.foldlM_cons]
  simp [eigenvalPy, h2, h4]

/-- complex sine matrix -/
noncomputable def Sm (n : ℕ) : Matrix (Fin n) (Fin n) ℂ := Matrix.of fun p i => ((S n p i : ℝ) : ℂ)

theorem S_comm (n p i : ℕ) : S n p i = S n i p := by
  unfold S; congr 1; ring

theorem Sm_transpose (n : ℕ) : (Sm n)ᵀ = Sm n := by
  ext p i; simp [Sm, S_comm n p i]

theorem Sm_mul_Sm (n : ℕ) : Sm n * Sm n = ((((n : ℝ) + 1) / 2 : ℝ) : ℂ) • (1 : Matrix (Fin n) (Fin n) ℂ) := by
  ext p q
  rw [Matrix.mul_apply, Matrix.smul_apply, Matrix.one_apply]
  simp only [Sm, Matrix.of_apply]
  have h := S_orth n p q p.2 q.2
  rw [Finset.sum_range] at h
  have : ∀ i : Fin n, ((S n p i : ℝ) : ℂ) * ((S n i q : ℝ) : ℂ) = ((S n p i * S n q i : ℝ) : ℂ) := by
    intro i; rw [S_comm n i q]; push_cast; ring
  simp only [this]
  rw [← Complex.ofReal_sum, h]
  by_cases hpq : p = q
  · subst hpq; simp
  · have : (p : ℕ) ≠ q := fun h => hpq (Fin.ext h)
    simp [hpq, this]

theorem dst1_eq {n : ℕ} (x : Fin n → ℂ) (k : Fin n) : dst1 x k = 2 * ∑ m, x m * Sm n k m := rfl

theorem dst2_eq {n : ℕ} (x : Arr n) (i j : Fin n) :
    dst2 x i j = 4 * (Sm n * (Matrix.of x) * Sm n) i j := by
  unfold dst2
  simp only [dst1_eq, Matrix.mul_apply, Matrix.of_apply]
  simp only [Finset.sum_mul, Finset.mul_sum]
  rw [Finset.sum_comm]
  apply Finset.sum_congr rfl; intro a _
  apply Finset.sum_congr rfl; intro b _
  have : Sm n b j = Sm n j b := by
    have := congrFun (congrFun (Sm_transpose n) b) j; rw [← this]; rfl
  rw [show Sm n a j = Sm n j a from by
    have := congrFun (congrFun (Sm_transpose n) a) j; rw [← this]; rfl]
  ring

/-- sine coefficients of a grid function -/
noncomputable def Fhat {n : ℕ} (v : Arr n) : Arr n :=
  (((4 / ((n : ℝ) + 1) ^ 2 : ℝ) : ℂ) • (Sm n * (Matrix.of v) * Sm n) : Matrix _ _ ℂ)

/-- grid function from sine coefficients -/
noncomputable def synth {n : ℕ} (c : Arr n) : Arr n := (Sm n * (Matrix.of c) * Sm n : Matrix _ _ ℂ)

theorem SSvSS {n : ℕ} (v : Matrix (Fin n) (Fin n) ℂ) :
    Sm n * (Sm n * v * Sm n) * Sm n = (((((n : ℝ) + 1) / 2) ^ 2 : ℝ) : ℂ) • v := by
  have : Sm n * (Sm n * v * Sm n) * Sm n = (Sm n * Sm n) * v * (Sm n * Sm n) := by
    simp only [Matrix.mul_assoc]
  rw [this, Sm_mul_Sm]
  simp only [Matrix.smul_mul, Matrix.mul_smul, Matrix.one_mul, Matrix.mul_one, smul_smul]
  congr 1
  push_cast; ring

theorem synth_Fhat {n : ℕ} (v : Arr n) : synth (Fhat v) = v := by
  have hn : ((n : ℝ) + 1) ≠ 0 := by positivity
  unfold synth Fhat
  have : (Sm n * Matrix.of (((4 / ((n : ℝ) + 1) ^ 2 : ℝ) : ℂ) • (Sm n * (Matrix.of v) * Sm n)) * Sm n)
    = Matrix.of v := by
    rw [show Matrix.of (((4 / ((n : ℝ) + 1) ^ 2 : ℝ) : ℂ) • (Sm n * (Matrix.of v) * Sm n))
      = ((4 / ((n : ℝ) + 1) ^ 2 : ℝ) : ℂ) • (Sm n * (Matrix.of v) * Sm n) from rfl]
    rw [Matrix.mul_smul, Matrix.smul_mul, SSvSS, smul_smul, ← Complex.ofReal_mul]
    rw [show (4 / ((n : ℝ) + 1) ^ 2 * (((n : ℝ) + 1) / 2) ^ 2) = 1 by field_simp; norm_num]
    simp
  exact this

theorem Fhat_synth {n : ℕ} (c : Arr n) : Fhat (synth c) = c := by
  have hn : ((n : ℝ) + 1) ≠ 0 := by positivity
  unfold synth Fhat
  have : (((4 / ((n : ℝ) + 1) ^ 2 : ℝ) : ℂ) • (Sm n * Matrix.of (Sm n * (Matrix.of c) * Sm n) * Sm n))
    = Matrix.of c := by
    rw [show Matrix.of (Sm n * (Matrix.of c) * Sm n) = Sm n * (Matrix.of c) * Sm n from rfl]
    rw [SSvSS, smul_smul, ← Complex.ofReal_mul]
    rw [show (4 / ((n : ℝ) + 1) ^ 2 * (((n : ℝ) + 1) / 2) ^ 2) = 1 by field_simp; norm_num]
    simp
  exact this

/-- the whole `_fourier` pipeline is "multiply the sine coefficients" -/
theorem fourierPy_ok {n order : ℕ} {AD k : ℝ} (ho : order = 2 ∨ order = 4) (hAD : AD ≠ 0)
    (v : Arr n) (solve : Bool) :
    fourierPy (n + 1) order AD k v solve = .ok (synth fun p q =>
      if solve then Fhat v p q / ((eigF (n + 1) order AD k (p + 1) (q + 1) : ℝ) : ℂ)
      else Fhat v p q * ((eigF (n + 1) order AD k (p + 1) (q + 1) : ℝ) : ℂ)) := by
  obtain ⟨e, he, hval⟩ := calcEigenvals_ok (N := n + 1) (order := order) (AD := AD) (k := k) ho
  have hn : ((n : ℝ) + 1) ≠ 0 := by positivity
  have hnC : ((n : ℂ) + 1) ≠ 0 := by exact_mod_cast hn
  have hADC : (AD : ℂ) ≠ 0 := by exact_mod_cast hAD
  have hs : ∀ p q : Fin n, dst2 v p q * (((AD / ((n + 1 : ℕ) : ℝ)) ^ 2 / 2 : ℝ) : ℂ)
      = ((AD ^ 2 / 2 : ℝ) : ℂ) * Fhat v p q := by
    intro p q
    rw [dst2_eq]
    simp only [Fhat, Matrix.smul_apply, smul_eq_mul]
    push_cast; field_simp
  unfold fourierPy
  simp only [ne_eq, not_true, if_false, he, ok_bind, pure_eq_ok]
  congr 1
  funext i j
  rw [dst2_eq]
  have hc : ∀ (c d : Arr n), (∀ p q, c p q = ((AD ^ 2 / 2 : ℝ) : ℂ) * d p q) →
      4 * (Sm n * (Matrix.of c) * Sm n) i j / ((2 * AD ^ 2 : ℝ) : ℂ) = synth d i j := by
    intro c d h
    have : Matrix.of c = ((AD ^ 2 / 2 : ℝ) : ℂ) • Matrix.of d := by
      ext p q; simp [h p q]
    rw [this, Matrix.mul_smul, Matrix.smul_mul, Matrix.smul_apply]
    simp only [synth, smul_eq_mul]
    push_cast; field_simp; norm_num
  apply hc
  intro p q
  cases solve
  · simp only [Bool.false_eq_true, if_false]
    rw [hs, hval p q (by omega) (by omega)]; ring
  · simp only [if_true]
    rw [hs, hval p q (by omega) (by omega)]; ring

end Pot
