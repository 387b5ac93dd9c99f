import Verif.Model.Scripts
import Verif.Proofs.Square
import Verif.Proofs.MapM
import Verif.Props.Resonance

/-! # Property C85: what `scripts/resonance.py` prints

The script prints wavenumbers "for which a resonance will occur" and warns that it might not give the correct values. -/

namespace Pot
open Real Spec

/-- **C85** the resonant wavenumbers of a square: `k² = (aπ/s)² + (bπ/s)²` with positive integers `a`, `b`, and no others -/
theorem C85_exact {s : ℝ} (hs : 0 < s) (k : ℝ) :
    SquareResonance s k ↔ ∃ a b : ℕ, 1 ≤ a ∧ 1 ≤ b ∧ k ^ 2 = (a * π / s) ^ 2 + (b * π / s) ^ 2 := by
  constructor
  · rintro ⟨u, hu, hbc, ⟨x, y, hx, hy, hne⟩, heq⟩
    by_contra hno
    push Not at hno
    obtain ⟨F1, F11, F2, F22, c11, c22, h1, h11, h2, h22⟩ := partials_of_contDiff hu
    set m := s / 2 with hm
    have hm0 : 0 < m := by positivity
    have hsm : s = m + m := by rw [hm]; ring
    -- the equation holds up to the sides, by continuity
    have hin : ∀ x y, |x| < m → |y| < m → F11 (x, y) + F22 (x, y) + k ^ 2 * u x y = 0 := by
      intro x y hx hy
      have e1 : deriv (deriv fun ξ => u ξ y) x = F11 (x, y) := by
        have : (deriv fun ξ => u ξ y) = fun ξ => F1 (ξ, y) := by funext ξ; exact (h1 ξ y).deriv
        rw [this]; exact (h11 x y).deriv
      have e2 : deriv (deriv fun η => u x η) y = F22 (x, y) := by
        have : (deriv fun η => u x η) = fun η => F2 (x, η) := by funext η; exact (h2 x η).deriv
        rw [this]; exact (h22 x y).deriv
      rw [← e1, ← e2]; exact heq x y hx hy
    have hcl : ∀ p : ℝ × ℝ, p ∈ Set.Icc (-m) m ×ˢ Set.Icc (-m) m → F11 p + F22 p + k ^ 2 * u p.1 p.2 = 0 := by
      have hc : Continuous fun p : ℝ × ℝ => F11 p + F22 p + k ^ 2 * u p.1 p.2 := by
        have := hu.continuous
        fun_prop
      have hclosed : IsClosed {p : ℝ × ℝ | F11 p + F22 p + k ^ 2 * u p.1 p.2 = 0} := isClosed_eq hc continuous_const
      have hsub : Set.Ioo (-m) m ×ˢ Set.Ioo (-m) m ⊆ {p : ℝ × ℝ | F11 p + F22 p + k ^ 2 * u p.1 p.2 = 0} := by
        rintro ⟨x, y⟩ ⟨hx, hy⟩
        exact hin x y (abs_lt.2 hx) (abs_lt.2 hy)
      have := hclosed.closure_subset_iff.2 hsub
      rw [closure_prod_eq, closure_Ioo (by linarith)] at this
      exact this
    have hz := square_unique (F := fun p => u (p.1 - m) (p.2 - m)) (F1 := fun p => F1 (p.1 - m, p.2 - m))
      (F11 := fun p => F11 (p.1 - m, p.2 - m)) (F2 := fun p => F2 (p.1 - m, p.2 - m)) (F22 := fun p => F22 (p.1 - m, p.2 - m))
      (by
        have := hu.continuous.comp (show Continuous fun p : ℝ × ℝ => (p.1 - m, p.2 - m) by fun_prop)
        exact this) (by fun_prop) (by fun_prop)
      (fun x y => (h1 (x - m) (y - m)).comp_sub_const x m) (fun x y => (h11 (x - m) (y - m)).comp_sub_const x m)
      (fun x y => (h2 (x - m) (y - m)).comp_sub_const y m) (fun x y => (h22 (x - m) (y - m)).comp_sub_const y m)
      (k := k) hs (fun t ht => by
        have ht' : |t - m| ≤ s / 2 := abs_le.2 ⟨by linarith [ht.1], by linarith [ht.2]⟩
        obtain ⟨b1, b2, b3, b4⟩ := hbc (t - m) ht'
        have e : s - m = m := by linarith
        refine ⟨?_, ?_, ?_, ?_⟩
        · show u (0 - m) (t - m) = 0
          rw [zero_sub]; exact b2
        · show u (s - m) (t - m) = 0
          rw [e]; exact b1
        · show u (t - m) (0 - m) = 0
          rw [zero_sub]; exact b4
        · show u (t - m) (s - m) = 0
          rw [e]; exact b3)
      (fun x hx y hy => hcl (x - m, y - m) ⟨⟨by linarith [hx.1], by linarith [hx.2]⟩, ⟨by linarith [hy.1], by linarith [hy.2]⟩⟩)
      hno (x := x + m) (y := y + m) ⟨by linarith [(abs_lt.1 hx).1], by linarith [(abs_lt.1 hx).2]⟩
      ⟨by linarith [(abs_lt.1 hy).1], by linarith [(abs_lt.1 hy).2]⟩
    simp only [add_sub_cancel_right] at hz
    exact hne hz
  · rintro ⟨a, b, ha, hb, hk⟩
    have lin : ∀ (c : ℝ) (x : ℝ), HasDerivAt (fun x : ℝ => c * (x + s / 2)) c x := fun c x => by
      have := ((hasDerivAt_id x).add_const (s / 2)).const_mul c
      rwa [mul_one] at this
    have d2 : ∀ (c e x : ℝ), deriv (deriv fun ξ => sin (c * (ξ + s / 2)) * e) x = -c ^ 2 * (sin (c * (x + s / 2)) * e) := by
      intro c e x
      have h1 : (deriv fun ξ => sin (c * (ξ + s / 2)) * e) = fun ξ => cos (c * (ξ + s / 2)) * c * e := by
        funext ξ; exact ((lin c ξ).sin.mul_const e).deriv
      rw [h1]
      have := (((lin c x).cos.mul_const c).mul_const e).deriv
      rw [this]; ring
    have d2' : ∀ (c e x : ℝ), deriv (deriv fun ξ => e * sin (c * (ξ + s / 2))) x = -c ^ 2 * (e * sin (c * (x + s / 2))) := by
      intro c e x
      have : (fun ξ => e * sin (c * (ξ + s / 2))) = fun ξ => sin (c * (ξ + s / 2)) * e := by funext ξ; ring
      rw [this, d2]; ring
    have e0 : ∀ c : ℝ, sin (c * (-(s / 2) + s / 2)) = 0 := by intro c; simp
    have e1 : ∀ a : ℕ, sin (a * π / s * (s / 2 + s / 2)) = 0 := by
      intro a
      rw [add_halves, div_mul_cancel₀ _ hs.ne', sin_nat_mul_pi]
    refine ⟨fun x y => sin (a * π / s * (x + s / 2)) * sin (b * π / s * (y + s / 2)), by fun_prop, ?_, ?_, ?_⟩
    · intro t _
      refine ⟨?_, ?_, ?_, ?_⟩
      · simp only [e1, zero_mul]
      · simp only [e0, zero_mul]
      · simp only [e1, mul_zero]
      · simp only [e0, mul_zero]
    · -- close to the corner both sines are positive
      have pos : ∀ a c : ℕ, 1 ≤ a → a ≤ c → 0 < sin (a * π / s * (-(s / 2) + s / (2 * c) + s / 2)) := by
        intro a c ha hac
        have ha' : (1:ℝ) ≤ a := by exact_mod_cast ha
        have hac' : (a:ℝ) ≤ c := by exact_mod_cast hac
        have hc0 : (0:ℝ) < c := by linarith
        have e : (a:ℝ) * π / s * (-(s / 2) + s / (2 * c) + s / 2) = a / c * (π / 2) := by
          field_simp
          ring
        rw [e]
        have h1 : (a:ℝ) / c ≤ 1 := (div_le_one hc0).2 hac'
        have h2 : 0 < (a:ℝ) / c := by positivity
        refine sin_pos_of_pos_of_lt_pi (by have := pi_pos; positivity) ?_
        have := pi_pos
        nlinarith
      have hin : ∀ c : ℕ, 1 ≤ c → |-(s / 2) + s / (2 * c)| < s / 2 := by
        intro c hc
        have hc' : (1:ℝ) ≤ c := by exact_mod_cast hc
        have h1 : s / (2 * c) ≤ s / 2 := by
          rw [div_le_div_iff₀ (by positivity) (by norm_num)]
          nlinarith
        have h2 : 0 < s / (2 * c) := by positivity
        rw [abs_lt]
        constructor <;> linarith
      refine ⟨-(s / 2) + s / (2 * (a + b : ℕ)), -(s / 2) + s / (2 * (a + b : ℕ)), hin _ (by omega), hin _ (by omega), ?_⟩
      exact (mul_pos (pos a _ ha (by omega)) (pos b _ hb (by omega))).ne'
    · intro x y _ _
      have h1 := d2 (a * π / s) (sin (b * π / s * (y + s / 2))) x
      have h2 := d2' (b * π / s) (sin (a * π / s * (x + s / 2))) y
      rw [h1, h2, hk]; ring

theorem resonancePairs_eq : resonancePairs =
    [(1, 1), (1, 3), (1, 5), (1, 7), (1, 9), (3, 3), (3, 5), (3, 7), (3, 9), (5, 5), (5, 7), (5, 9), (7, 7), (7, 9), (9, 9)] := by
  decide

theorem mem_resonancePairs {a b : ℕ} : (a, b) ∈ resonancePairs ↔ a % 2 = 1 ∧ b % 2 = 1 ∧ a ≤ b ∧ b ≤ 9 := by
  constructor
  · have : ∀ p ∈ resonancePairs, p.1 % 2 = 1 ∧ p.2 % 2 = 1 ∧ p.1 ≤ p.2 ∧ p.2 ≤ 9 := by decide
    exact this (a, b)
  · have : ∀ b : Fin 10, ∀ a : Fin 10, a.1 % 2 = 1 → b.1 % 2 = 1 → a.1 ≤ b.1 → (a.1, b.1) ∈ resonancePairs := by decide
    rintro ⟨h1, h2, h3, h4⟩
    exact this ⟨b, by omega⟩ ⟨a, by omega⟩ h1 h2 h3

/-- **C85** the printed list: sorted, and made of the modes with odd `a ≤ b ≤ 9` -/
theorem C85_printed {s : ℝ} (hs : s ≠ 0) :
    ∃ l, resonanceScript s = .ok l ∧ l.length = 15 ∧ l.Pairwise (· ≤ ·) ∧
      ∀ κ, κ ∈ l ↔ ∃ a b : ℕ, a % 2 = 1 ∧ b % 2 = 1 ∧ a ≤ b ∧ b ≤ 9 ∧ κ = √((a * π / s) ^ 2 + (b * π / s) ^ 2) := by
  have hok : badK2 s = .ok (resonancePairs.map fun p => (p.1 * π / s) ^ 2 + (p.2 * π / s) ^ 2) := by
    unfold badK2
    simp only [if_neg hs]
    exact mapM_ok fun _ _ => rfl
  refine ⟨_, by unfold resonanceScript; rw [hok]; rfl, ?_, ?_, ?_⟩
  · rw [List.length_map, List.length_mergeSort, List.length_map, resonancePairs_eq]
    rfl
  · rw [List.pairwise_map]
    have := List.pairwise_mergeSort (le := fun x y : ℝ => decide (x ≤ y)) (by simp; intro a b c; exact le_trans)
      (by simp; intro a b; exact le_total a b) (resonancePairs.map fun p => ((p.1:ℝ) * π / s) ^ 2 + ((p.2:ℝ) * π / s) ^ 2)
    refine this.imp fun h => sqrt_le_sqrt (by simpa using h)
  · intro κ
    simp only [List.mem_map, List.mem_mergeSort]
    constructor
    · rintro ⟨_, ⟨⟨a, b⟩, hp, rfl⟩, rfl⟩
      obtain ⟨h1, h2, h3, h4⟩ := mem_resonancePairs.1 hp
      exact ⟨a, b, h1, h2, h3, h4, rfl⟩
    · rintro ⟨a, b, h1, h2, h3, h4, rfl⟩
      exact ⟨_, ⟨(a, b), mem_resonancePairs.2 ⟨h1, h2, h3, h4⟩, rfl⟩, rfl⟩

theorem C85_zero_side : resonanceScript 0 = .error .zeroDivisionError := by
  unfold resonanceScript badK2
  rw [resonancePairs_eq]
  simp [List.mapM_cons]

/-- **C85** everything the script prints is a resonance of the square -/
theorem C85_sound {s : ℝ} (hs : 0 < s) {l : List ℝ} (hl : resonanceScript s = .ok l) {κ : ℝ} (hκ : κ ∈ l) :
    0 < κ ∧ SquareResonance s κ := by
  obtain ⟨l', h1, _, _, h4⟩ := C85_printed hs.ne'
  rw [hl] at h1
  cases h1
  obtain ⟨a, b, ha, hb, _, _, rfl⟩ := (h4 κ).1 hκ
  have hpos : 0 < ((a:ℝ) * π / s) ^ 2 + ((b:ℝ) * π / s) ^ 2 := by
    have : (0:ℝ) < a := by exact_mod_cast (by omega : 0 < a)
    have := pi_pos
    positivity
  refine ⟨sqrt_pos.2 hpos, (C85_exact hs _).2 ⟨a, b, by omega, by omega, ?_⟩⟩
  rw [sq_sqrt hpos.le]

/-- **C85** the script does not print all of them: it misses every mode whose `a² + b²` is not 2 modulo 8, in particular every
mode with an even index (`a = 1`, `b = 2` is the second resonance of the square) -/
theorem C85_incomplete {s : ℝ} (hs : 0 < s) {a b : ℕ} (ha : 1 ≤ a) (hb : 1 ≤ b) (hab : (a ^ 2 + b ^ 2) % 8 ≠ 2) :
    SquareResonance s √((a * π / s) ^ 2 + (b * π / s) ^ 2) ∧
      ∀ l, resonanceScript s = .ok l → √((a * π / s) ^ 2 + (b * π / s) ^ 2) ∉ l := by
  refine ⟨(C85_exact hs _).2 ⟨a, b, ha, hb, sq_sqrt (by positivity)⟩, ?_⟩
  intro l hl hmem
  obtain ⟨l', h1, _, _, h4⟩ := C85_printed hs.ne'
  rw [hl] at h1
  cases h1
  obtain ⟨c, d, hc, hd, _, _, he⟩ := (h4 _).1 hmem
  rw [sqrt_inj (by positivity) (by positivity)] at he
  have hq : (π / s) ^ 2 ≠ 0 := by have := pi_pos; positivity
  have h2 : ((a:ℝ) ^ 2 + b ^ 2) = c ^ 2 + d ^ 2 := by
    apply mul_right_cancel₀ hq
    have e : ∀ x : ℝ, (x * π / s) ^ 2 = x ^ 2 * (π / s) ^ 2 := fun x => by ring
    simp only [e] at he
    linarith
  have h3 : a ^ 2 + b ^ 2 = c ^ 2 + d ^ 2 := by exact_mod_cast h2
  apply hab
  rw [h3]
  have odd : ∀ c : ℕ, c % 2 = 1 → c ^ 2 % 8 = 1 := by
    intro c hc
    have : c % 8 = 1 ∨ c % 8 = 3 ∨ c % 8 = 5 ∨ c % 8 = 7 := by omega
    rcases this with h | h | h | h <;> simp [Nat.pow_mod, h]
  have := odd c hc
  have := odd d hd
  omega

/-- a mode with an index divisible by two is never printed -/
theorem C85_even {s : ℝ} (hs : 0 < s) {a b : ℕ} (ha : 1 ≤ a) (hb : 1 ≤ b) (he : a % 2 = 0 ∨ b % 2 = 0) :
    SquareResonance s √((a * π / s) ^ 2 + (b * π / s) ^ 2) ∧
      ∀ l, resonanceScript s = .ok l → √((a * π / s) ^ 2 + (b * π / s) ^ 2) ∉ l := by
  refine C85_incomplete hs ha hb ?_
  have sq : ∀ c : ℕ, c ^ 2 % 8 = 0 ∧ c % 2 = 0 ∨ c ^ 2 % 8 = 4 ∧ c % 2 = 0 ∨ c ^ 2 % 8 = 1 ∧ c % 2 = 1 := by
    intro c
    have : c % 8 < 8 := Nat.mod_lt _ (by norm_num)
    have h2 : c % 2 = c % 8 % 2 := by omega
    rw [h2]
    interval_cases h : c % 8 <;> simp [Nat.pow_mod, h]
  have h1 := sq a
  have h2 := sq b
  omega

/-- every difference operator has, for each mode, a grid function that it multiplies by the eigenvalue -/
theorem eigenmode {n order : ℕ} (ho : order = 2 ∨ order = 4) {AD : ℝ} (hAD : AD ≠ 0) (k : ℝ) (p q : Fin n) :
    ∃ v : Arr n, v ≠ 0 ∧ applyL (pad v) order AD k = fun i j => v i j * ((eigF (n + 1) order AD k (p + 1) (q + 1) : ℝ) : ℂ) := by
  let c : Arr n := fun p' q' => if p' = p ∧ q' = q then 1 else 0
  have lin : ∀ (z : ℂ) (c : Arr n), synth (fun i j => c i j * z) = fun i j => synth c i j * z := by
    intro z c
    funext i j
    have : (fun i j => c i j * z) = z • c := by funext i j; simp [mul_comm]
    rw [this]
    show (Sm n * (z • Matrix.of c) * Sm n) i j = (Sm n * Matrix.of c * Sm n) i j * z
    rw [Matrix.mul_smul, Matrix.smul_mul, Matrix.smul_apply, smul_eq_mul, mul_comm]
  refine ⟨synth c, ?_, ?_⟩
  · intro h0
    have h1 : Fhat (synth c) p q = 1 := by rw [Fhat_synth]; simp [c]
    rw [h0] at h1
    have h2 : Fhat (0 : Arr n) = 0 := by
      unfold Fhat
      rw [show Matrix.of (0 : Arr n) = 0 from rfl]; simp; rfl
    rw [h2] at h1; simp at h1
  · obtain ⟨w, _, hw2, hw3⟩ := C13_apply_L ho hAD k (synth c)
    rw [← hw2]
    funext a b
    rw [hw3, Lh_node ho hAD]
    have : (fun p' q' => c p' q' * ((eigF (n + 1) order AD k (p' + 1) (q' + 1) : ℝ) : ℂ)) =
        fun p' q' => c p' q' * ((eigF (n + 1) order AD k (p + 1) (q + 1) : ℝ) : ℂ) := by
      funext p' q'
      simp only [c]
      split_ifs with h'
      · rw [h'.1, h'.2]
      · simp
    rw [this, lin]

theorem cos_bound6 {x : ℝ} (hx : |x| ≤ 1) : |cos x - (1 - x ^ 2 / 2 + x ^ 4 / 24)| ≤ x ^ 6 / 500 := by
  have h := Complex.exp_bound (x := x * Complex.I) (by simpa using hx) (n := 6) (by norm_num)
  have e : cos x - (1 - x ^ 2 / 2 + x ^ 4 / 24) =
      (Complex.exp (x * Complex.I) - ∑ m ∈ Finset.range 6, (x * Complex.I) ^ m / (m.factorial : ℂ)).re := by
    rw [Complex.exp_mul_I, ← Complex.ofReal_cos, ← Complex.ofReal_sin]
    simp only [Finset.sum_range_succ, Finset.sum_range_zero, mul_pow]
    have i2 : Complex.I ^ 2 = -1 := Complex.I_sq
    have i3 : Complex.I ^ 3 = -Complex.I := by rw [pow_succ, i2]; ring
    have i4 : Complex.I ^ 4 = 1 := by rw [pow_succ, i3]; simp
    have i5 : Complex.I ^ 5 = Complex.I := by rw [pow_succ, i4]; ring
    rw [i2, i3, i4, i5]
    simp only [Nat.factorial]
    simp [← Complex.ofReal_pow]
    rw [Complex.cos_ofReal_re]
    ring
  rw [e]
  refine (Complex.abs_re_le_norm _).trans (h.trans ?_)
  rw [norm_mul, Complex.norm_I, mul_one, Complex.norm_real, norm_eq_abs]
  have : |x| ^ 6 = x ^ 6 := by rw [← abs_pow, abs_of_nonneg (by positivity)]
  rw [this]
  norm_num [Nat.factorial]
  have : 0 ≤ x ^ 6 := by positivity
  linarith

theorem eig4_aux {X Y r1 r2 : ℝ} (hX0 : 0 ≤ X) (hX1 : X ≤ 1) (hY0 : 0 ≤ Y) (hY1 : Y ≤ 1) (b1 : |r1| ≤ X ^ 3 / 500)
    (b2 : |r2| ≤ Y ^ 3 / 500) :
    |(X + Y) * (1 - X / 2 + X ^ 2 / 24 + r1 + (1 - Y / 2 + Y ^ 2 / 24 + r2) + 4) +
        4 * (1 - X / 2 + X ^ 2 / 24 + r1) * (1 - Y / 2 + Y ^ 2 / 24 + r2) + 8 * (1 - X / 2 + X ^ 2 / 24 + r1) +
        8 * (1 - Y / 2 + Y ^ 2 / 24 + r2) - 20| ≤ 6 * (X + Y) ^ 3 := by
  have key : (X + Y) * (1 - X / 2 + X ^ 2 / 24 + r1 + (1 - Y / 2 + Y ^ 2 / 24 + r2) + 4) +
      4 * (1 - X / 2 + X ^ 2 / 24 + r1) * (1 - Y / 2 + Y ^ 2 / 24 + r2) + 8 * (1 - X / 2 + X ^ 2 / 24 + r1) +
      8 * (1 - Y / 2 + Y ^ 2 / 24 + r2) - 20 =
      (X + Y) * (X - Y) ^ 2 / 24 + X ^ 2 * Y ^ 2 / 144 + r1 * ((X + Y) + 4 * (1 - Y / 2 + Y ^ 2 / 24 + r2) + 8) +
        r2 * ((X + Y) + 4 * (1 - X / 2 + X ^ 2 / 24) + 8) := by
    ring
  rw [key]
  have X2 : X ^ 2 ≤ 1 := pow_le_one₀ hX0 hX1
  have Y2 : Y ^ 2 ≤ 1 := pow_le_one₀ hY0 hY1
  have Y3 : Y ^ 3 ≤ 1 := pow_le_one₀ hY0 hY1
  have X20 := sq_nonneg X
  have Y20 := sq_nonneg Y
  have r2b := abs_le.1 b2
  have cb : |(X + Y) + 4 * (1 - Y / 2 + Y ^ 2 / 24 + r2) + 8| ≤ 20 := by
    rw [abs_le]
    constructor <;> linarith [r2b.1, r2b.2]
  have cb2 : |(X + Y) + 4 * (1 - X / 2 + X ^ 2 / 24) + 8| ≤ 20 := by
    rw [abs_le]
    constructor <;> linarith
  have m1 := abs_le.1 (show |r1 * ((X + Y) + 4 * (1 - Y / 2 + Y ^ 2 / 24 + r2) + 8)| ≤ X ^ 3 / 500 * 20 by
    rw [abs_mul]
    exact mul_le_mul b1 cb (abs_nonneg _) (by positivity))
  have m2 := abs_le.1 (show |r2 * ((X + Y) + 4 * (1 - X / 2 + X ^ 2 / 24) + 8)| ≤ Y ^ 3 / 500 * 20 by
    rw [abs_mul]
    exact mul_le_mul b2 cb2 (abs_nonneg _) (by positivity))
  have t1 : 0 ≤ (X + Y) * (X - Y) ^ 2 := by positivity
  have t2 : 0 ≤ X ^ 2 * Y ^ 2 := by positivity
  have t3 : (X + Y) * (X - Y) ^ 2 ≤ (X + Y) ^ 3 := by
    have h4 : (X + Y) ^ 3 - (X + Y) * (X - Y) ^ 2 = 4 * ((X + Y) * (X * Y)) := by ring
    have : 0 ≤ 4 * ((X + Y) * (X * Y)) := by positivity
    linarith
  have t4 : X ^ 2 * Y ^ 2 ≤ (X + Y) ^ 3 := by
    have h1 : X ^ 2 * Y ^ 2 ≤ X ^ 2 * Y := by
      refine mul_le_mul_of_nonneg_left ?_ X20
      rw [sq]
      exact mul_le_of_le_one_left hY0 hY1
    have h2 : (X + Y) ^ 3 - X ^ 2 * Y = X ^ 3 + 2 * (X ^ 2 * Y) + 3 * (X * Y ^ 2) + Y ^ 3 := by ring
    have : 0 ≤ X ^ 3 + 2 * (X ^ 2 * Y) + 3 * (X * Y ^ 2) + Y ^ 3 := by positivity
    linarith
  have t5 : X ^ 3 ≤ (X + Y) ^ 3 := pow_le_pow_left₀ hX0 (by linarith) 3
  have t6 : Y ^ 3 ≤ (X + Y) ^ 3 := pow_le_pow_left₀ hY0 (by linarith) 3
  have t7 : 0 ≤ (X + Y) ^ 3 := by positivity
  rw [abs_le]
  constructor <;> linarith [m1.1, m1.2, m2.1, m2.2]

/-- **C85** on a resonant wavenumber of the square the eigenvalue of the same mode of the difference operator is small, not zero:
of order `h²` and `h⁴` -/
theorem C85_small {n order : ℕ} (ho : order = 2 ∨ order = 4) {s : ℝ} (hs : 0 < s) {a b : ℕ}
    (ha : π * a ≤ n + 1) (hb : π * b ≤ n + 1) {κ : ℝ} (hκ : κ ^ 2 = (a * π / s) ^ 2 + (b * π / s) ^ 2) :
    |eigF (n + 1) order s κ a b| ≤ κ ^ (order + 2) * (s / ((n + 1 : ℕ) : ℝ)) ^ order := by
  have hN : (0:ℝ) < ((n + 1 : ℕ) : ℝ) := by positivity
  set N : ℝ := ((n + 1 : ℕ) : ℝ) with hNdef
  have hN1 : N = n + 1 := by rw [hNdef]; push_cast; ring
  set h := s / N with hh
  have hh0 : 0 < h := by positivity
  set x := π * a / N with hx
  set y := π * b / N with hy
  have hx0 : 0 ≤ x := by have := pi_pos; positivity
  have hy0 : 0 ≤ y := by have := pi_pos; positivity
  have hx1 : |x| ≤ 1 := by rw [abs_of_nonneg hx0, hx, div_le_one hN, hN1]; exact ha
  have hy1 : |y| ≤ 1 := by rw [abs_of_nonneg hy0, hy, div_le_one hN, hN1]; exact hb
  have hxy : h ^ 2 * κ ^ 2 = x ^ 2 + y ^ 2 := by
    rw [hκ, hh, hx, hy]
    field_simp
  set X := x ^ 2 with hX
  set Y := y ^ 2 with hY
  have hX0 : 0 ≤ X := sq_nonneg _
  have hY0 : 0 ≤ Y := sq_nonneg _
  have hX1 : X ≤ 1 := by rw [hX]; rw [abs_of_nonneg hx0] at hx1; nlinarith
  have hY1 : Y ≤ 1 := by rw [hY]; rw [abs_of_nonneg hy0] at hy1; nlinarith
  have hh2 : 0 < h ^ 2 := by positivity
  rcases ho with rfl | rfl
  · have e : eigF (n + 1) 2 s κ a b = (X + Y + (2 * cos x + 2 * cos y - 4)) / h ^ 2 := by
      unfold eigF
      rw [if_pos rfl, ← hxy, add_div, mul_div_cancel_left₀ _ hh2.ne']
    have c1 := cos_bound hx1
    have c2 := cos_bound hy1
    have p1 : |x| ^ 4 = X ^ 2 := by rw [abs_of_nonneg hx0, hX]; ring
    have p2 : |y| ^ 4 = Y ^ 2 := by rw [abs_of_nonneg hy0, hY]; ring
    rw [p1] at c1
    rw [p2] at c2
    have e2 : κ ^ (2 + 2) * h ^ 2 = (X + Y) ^ 2 / h ^ 2 := by
      rw [← hxy]; field_simp
    rw [e, e2, abs_div, abs_of_pos hh2]
    gcongr
    rw [abs_le] at c1 c2 ⊢
    have := mul_nonneg hX0 hY0
    have := sq_nonneg X
    have := sq_nonneg Y
    constructor <;> nlinarith
  · have e : eigF (n + 1) 4 s κ a b =
        ((X + Y) * (cos x + cos y + 4) + 4 * cos x * cos y + 8 * cos x + 8 * cos y - 20) / (6 * h ^ 2) := by
      unfold eigF
      rw [if_neg (by norm_num), ← hxy]
    have c1 := cos_bound6 hx1
    have c2 := cos_bound6 hy1
    obtain ⟨r1, hr1⟩ : ∃ r1, cos x = 1 - X / 2 + X ^ 2 / 24 + r1 := ⟨cos x - (1 - X / 2 + X ^ 2 / 24), by ring⟩
    obtain ⟨r2, hr2⟩ : ∃ r2, cos y = 1 - Y / 2 + Y ^ 2 / 24 + r2 := ⟨cos y - (1 - Y / 2 + Y ^ 2 / 24), by ring⟩
    have b1 : |r1| ≤ X ^ 3 / 500 := by
      have : r1 = cos x - (1 - x ^ 2 / 2 + x ^ 4 / 24) := by rw [hr1, hX]; ring
      rw [this]
      refine c1.trans (le_of_eq ?_)
      rw [hX]; ring
    have b2 : |r2| ≤ Y ^ 3 / 500 := by
      have : r2 = cos y - (1 - y ^ 2 / 2 + y ^ 4 / 24) := by rw [hr2, hY]; ring
      rw [this]
      refine c2.trans (le_of_eq ?_)
      rw [hY]; ring
    have e2 : κ ^ (4 + 2) * h ^ 4 = (6 * (X + Y) ^ 3) / (6 * h ^ 2) := by
      rw [← hxy]; field_simp
    rw [e, e2, abs_div, abs_of_pos (show (0:ℝ) < 6 * h ^ 2 by positivity)]
    gcongr
    rw [hr1, hr2]
    exact eig4_aux hX0 hX1 hY0 hY1 b1 b2

/-- **C85** for the default square (`2*pi`, which is also the solver's) no printed wavenumber is a resonance of the solver: on no
grid does the difference operator have a zero eigenvalue.  But the auxiliary problem gets arbitrarily badly conditioned: there is a
right-hand side whose solution is larger by the factor `1 / (κ^(p+2) h^p)`. -/
theorem C85_solver {order : ℕ} (ho : order = 2 ∨ order = 4) {l : List ℝ} (hl : resonanceScript (2 * π) = .ok l) {κ : ℝ}
    (hκ : κ ∈ l) :
    (∀ n, NoZeroEig n order probAD κ) ∧
    ∀ n : ℕ, 28 ≤ n → ∃ v g : Arr n, v ≠ 0 ∧ apSolve (n + 1) order probAD κ g = .ok v ∧
      ∀ i j, ‖g i j‖ ≤ κ ^ (order + 2) * (probAD / ((n + 1 : ℕ) : ℝ)) ^ order * ‖v i j‖ := by
  have h2π : (0:ℝ) < 2 * π := by have := pi_pos; positivity
  obtain ⟨l', h1, _, _, h4⟩ := C85_printed h2π.ne'
  rw [hl] at h1
  cases h1
  obtain ⟨a, b, ha, hb, hab, hb9, rfl⟩ := (h4 κ).1 hκ
  have hval : ∀ x : ℝ, x * π / (2 * π) = x / 2 := fun x => by
    have := pi_ne_zero
    field_simp
  have hno : ∀ n, NoZeroEig n order probAD √((a * π / (2 * π)) ^ 2 + (b * π / (2 * π)) ^ 2) := by
    intro n
    refine C78_no_resonance ho (s := 2) (by simpa using algebraic_ratCast 2) (by norm_num) ?_
    rw [hval, hval]
    refine IsAlgebraic.of_pow (n := 2) (by norm_num) ?_
    rw [sq_sqrt (by positivity)]
    have := algebraic_ratCast (((a : ℚ) / 2) ^ 2 + ((b : ℚ) / 2) ^ 2)
    push_cast at this
    exact this
  refine ⟨hno, fun n hn => ?_⟩
  obtain ⟨v, hv, hL⟩ := eigenmode ho (show probAD ≠ 0 from h2π.ne') √((a * π / (2 * π)) ^ 2 + (b * π / (2 * π)) ^ 2)
    (⟨a - 1, by omega⟩ : Fin n) (⟨b - 1, by omega⟩ : Fin n)
  obtain ⟨u, hu1, hu2, hu3⟩ := C14_unique ho (show probAD ≠ 0 from h2π.ne') _ (hno n)
    (applyL (pad v) order probAD √((a * π / (2 * π)) ^ 2 + (b * π / (2 * π)) ^ 2))
  rw [← hu3 v rfl] at hu1
  refine ⟨v, _, hv, hu1, fun i j => ?_⟩
  rw [hL]
  have ha1 : a - 1 + 1 = a := by omega
  have hb1 : b - 1 + 1 = b := by omega
  simp only [ha1, hb1]
  rw [norm_mul, Complex.norm_real, norm_eq_abs, mul_comm]
  have hn' : (28:ℝ) ≤ n := by exact_mod_cast hn
  have hle : ∀ c : ℕ, c ≤ 9 → π * c ≤ n + 1 := by
    intro c hc
    have hc' : (c:ℝ) ≤ 9 := by exact_mod_cast hc
    have := pi_lt_d2
    have := pi_pos
    nlinarith
  have := C85_small ho h2π (hle a (by omega)) (hle b hb9) (sq_sqrt (by positivity :
    0 ≤ ((a:ℝ) * π / (2 * π)) ^ 2 + ((b:ℝ) * π / (2 * π)) ^ 2))
  gcongr
  exact this

/-- the first printed value for the default square is `√2/2`; the second resonance `√5/2` is missing -/
example : (∃ l, resonanceScript (2 * π) = .ok l ∧ √2 / 2 ∈ l) ∧ SquareResonance (2 * π) (√5 / 2) ∧
    ∀ l, resonanceScript (2 * π) = .ok l → √5 / 2 ∉ l := by
  have h2π : (0:ℝ) < 2 * π := by have := pi_pos; positivity
  have hval : ∀ x : ℝ, x * π / (2 * π) = x / 2 := fun x => by
    have := pi_ne_zero
    field_simp
  have two : √((2:ℝ) ^ 2) = 2 := sqrt_sq (by norm_num)
  refine ⟨?_, ?_⟩
  · obtain ⟨l, h1, _, _, h4⟩ := C85_printed h2π.ne'
    refine ⟨l, h1, (h4 _).2 ⟨1, 1, rfl, rfl, le_rfl, by norm_num, ?_⟩⟩
    rw [hval, show ((1:ℕ):ℝ) / 2 = 1 / 2 by norm_num, show ((1:ℝ) / 2) ^ 2 + (1 / 2) ^ 2 = 2 / 2 ^ 2 by norm_num,
      sqrt_div (by norm_num), two]
  · have := C85_even h2π (a := 1) (b := 2) le_rfl (by norm_num) (Or.inr rfl)
    rw [hval, hval, show (((1:ℕ):ℝ) / 2) ^ 2 + (((2:ℕ):ℝ) / 2) ^ 2 = 5 / 2 ^ 2 by norm_num, sqrt_div (by norm_num), two] at this
    exact this

end Pot
