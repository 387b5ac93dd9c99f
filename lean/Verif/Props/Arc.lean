import Verif.Props.Source
import Verif.Props.Fourier

/-! # The whole program on circular-arc problems -/

namespace Pot
open Spec Finset Real

/-- a least-squares solver exists -/
theorem exists_isLstsq : ∃ lstsq : Lstsq, IsLstsq lstsq := by
  have key : ∀ (A : List (List ℂ)) (b : List ℂ), ∃ c : List ℂ, c.length = A.length ∧
      ∀ d : List ℂ, d.length = A.length → sysResidual b.length A b c ≤ sysResidual b.length A b d := by
    intro A b
    obtain ⟨c, hc⟩ := exists_lsq (m := A.length) (n := b.length) (fun l j => (A.getD j []).getD l 0)
      (fun l => b.getD l 0)
    have conv : ∀ d : Fin A.length → ℂ, sysResidual b.length A b (List.ofFn d) =
        ∑ i : Fin b.length, ‖(∑ j : Fin A.length, (A.getD j []).getD i 0 * d j) - b.getD i 0‖ ^ 2 := by
      intro d
      unfold sysResidual
      rw [← Fin.sum_univ_eq_sum_range (fun l => ‖(∑ j ∈ range A.length, (A.getD j []).getD l 0 *
        (List.ofFn d).getD j 0) - b.getD l 0‖ ^ 2)]
      refine sum_congr rfl fun l _ => ?_
      rw [← Fin.sum_univ_eq_sum_range (fun j => (A.getD j []).getD l 0 * (List.ofFn d).getD j 0)]
      congr 3
      refine sum_congr rfl fun j _ => ?_
      rw [getD_ofFn d j j.2]
    refine ⟨List.ofFn c, by simp, fun d hd => ?_⟩
    have hdd : d = List.ofFn fun j : Fin A.length => d.getD j 0 := by
      refine List.ext_getElem (by simp [hd]) fun i h1 h2 => ?_
      simp [List.getD_eq_getElem?_getD, h1]
    rw [hdd, conv, conv]
    exact hc _
  choose f hf using key
  exact ⟨f, fun A b _ => hf A b⟩

theorem setup_arc {iter : Iter} (hit : IsIter iter) {b : Brentq} (hb : BrentqSpec b) {n order : ℕ}
    (ho : order = 2 ∨ order = 4) {AD a R k : ℝ} (hAD : 0 < AD) (ha : 0 < a) (haπ : a < π) (hR : 0 < R)
    (hmar : R < AD / 2 - AD / (n + 1 : ℕ)) (hz : NoZeroEig n order AD k) :
    ∃ G, psConstructGrids iter (mkEnv b (n + 1) AD a R (arcR R)) order = .ok G ∧
      Setup iter (mkEnv b (n + 1) AD a R (arcR R)) n order k G := by
  have hpi := pi_pos
  obtain ⟨G, hG, -⟩ := C12_arc hit hb (n + 1) order hAD ha haπ hR
  refine ⟨G, hG, hit, rfl, ho, hAD.ne', hz, hG, fun p hp => ?_⟩
  rw [(psGrids_sets hit hG).1] at hp
  exact C11_margin _ (Nat.succ_pos n) hAD (Rmax := R) (fun _ _ _ => le_rfl) ha (by show a ≤ 4 * π; linarith) hmar p
    ((mem_Mplus hit _ _ _ _).1 hp).2

/-- the inhomogeneous extension of a homogeneous problem is computed without error -/
theorem extendInhomoF_homogeneous {s : PSolver} (R : Ready s) (h : s.src.homogeneous = true) :
    extendInhomoF s = .ok (s.G.unionGamma.map fun _ => 0) := by
  classical
  have het : ∀ (sid : Fin 3) (nd : Node), ∃ t, nd ∈ s.G.allGamma sid → getEtype s.e s.cache sid nd = .ok t := by
    intro sid nd
    by_cases h : nd ∈ s.G.allGamma sid
    · obtain ⟨t, ht⟩ := getEtype_ok (R.hasCoord h)
      exact ⟨t, fun _ => ht⟩
    · exact ⟨.standard, fun h' => absurd h' h⟩
  choose et het using het
  obtain ⟨h1, h2⟩ := mvLoop_reduce R (ext := doInhomo s) (et := et) (res := fun _ _ => (0, 0))
    (fun sid nd hnd => ⟨R.sub sid nd hnd, het sid nd hnd, by unfold doInhomo; rw [if_pos h, pure_eq_ok]⟩)
  unfold extendInhomoF mvExtendInhomo
  rw [h1, ok_bind, h2]
  congr 1
  refine List.map_congr_left fun nd _ => ?_
  rw [mean_items]
  simp

/-- **C23** (C19, C40, C65) for homogeneous circular-arc problems nothing is left to assume about the grid: on every
grid that is fine enough and for every hash order, basis size, boundary data and wavenumber without resonance, the
program runs to the end, its solution satisfies the discrete equation at every interior node, and its Neumann
coefficients minimise the projection defect. -/
theorem C23_arc {iter : Iter} (hit : IsIter iter) {b : Brentq} (hb : BrentqSpec b) {n order : ℕ}
    (ho : order = 2 ∨ order = 4) {AD a R k eps : ℝ} (hAD : 0 < AD) (ha : 0 < a) (haπ : a < π) (hR : 0 < R)
    (hfine : AD / (n + 1 : ℕ) * √2 * (1 + 1 / sin (a / 2)) < R) (hmar : R < AD / 2 - AD / (n + 1 : ℕ))
    (hz : NoZeroEig n order AD k) {src : Source} (hh : src.homogeneous = true) {p q : ℕ} (hp : 1 ≤ p) (hq : 1 ≤ q)
    {fit : Chebfit} (hfit : IsChebfit fit) {lstsq : Lstsq} (hlsq : IsLstsq lstsq) (roots : List ℝ)
    (bc : ℝ → Fin 3 → ℂ) (ex : Option (ℝ → ℝ → ℂ))
    (hne : ∃ i j : ℤ, 1 ≤ i ∧ i ≤ n ∧ 1 ≤ j ∧ j ≤ n ∧ getCoord AD (n + 1) i j ∈ Domain a (arcR R)) :
    ∃ s : PSolver, psInit iter (mkEnv b (n + 1) AD a R (arcR R)) order k eps p q src = .ok s ∧
    ∃ f : Arr (n + 2), setupF iter s = .ok f ∧
    ∃ ap, ∃ res : RunResult n, initApSolF n iter s = .ok ap ∧ psRun iter s ap fit roots bc lstsq ex = .ok res ∧
      (∀ c d : Fin n, ((c : ℤ) + 1, (d : ℤ) + 1) ∈ s.G.Mplus →
        applyL (pad res.uAct) order AD k c d = applyB f c d) ∧
      ∃ d, defect n iter s ap res.c0 res.c1 = .ok d ∧ ∀ c1 : List ℂ, c1.length = p + 2 * q →
        ∃ d', defect n iter s ap res.c0 c1 = .ok d' ∧ d ≤ d' := by
  have hpi := pi_pos
  obtain ⟨G, hG, S⟩ := setup_arc hit hb ho hAD ha haπ hR hmar hz
  have hinit := psInit_ok (k := k) (eps := eps) (nc := p) (nr := q) (src := src) hG
  refine ⟨_, hinit, ?_⟩
  have hready := ready_arc hit hb hAD ha haπ hR hfine hinit
  set s : PSolver := ⟨mkEnv b (n + 1) AD a R (arcR R), order, k, eps, setupBasis p q, G,
    buildCache (mkEnv b (n + 1) AD a R (arcR R)) (G.allGamma 0), src⟩ with hs
  have hf : ∃ f : Arr (n + 2), setupF iter s = .ok f := by
    obtain ⟨w1, e1, -⟩ := setLoop (n := n) (fun nd => s.src.f (s.e.coord nd).1 (s.e.coord nd).2) (iter 6 s.G.Mplus)
      (fun q hq => by
        obtain ⟨a1, a2, a3, a4⟩ := mplus_inR hit S.hN hG q (((hit 6 _).2 q).1 hq)
        omega) (fun _ _ => 0)
    refine ⟨w1, ?_⟩
    unfold setupF extendF
    rw [e1, ok_bind, if_pos (show s.src.homogeneous = true from hh), pure_eq_ok]
  obtain ⟨f, hf⟩ := hf
  have hM : s.G.Mplus ≠ ∅ := by
    obtain ⟨i, j, h1, h2, h3, h4, h5⟩ := hne
    apply Finset.nonempty_iff_ne_empty.1
    refine ⟨(i, j), ?_⟩
    show (i, j) ∈ G.Mplus
    rw [(psGrids_sets hit hG).1]
    refine (mem_Mplus hit _ _ _ _).2 ⟨(mem_square _ _ _).2 ?_, ?_⟩
    · show (1 ≤ i ∧ i < ((n + 1 : ℕ) : ℤ)) ∧ 1 ≤ j ∧ j < ((n + 1 : ℕ) : ℤ)
      push_cast
      omega
    · exact (C07_is_interior AD (n + 1) a ha (by linarith) (arcR R) hR.le i j).2 h5
  obtain ⟨ap, res, h1, h2, -, -, h5, -, h7⟩ := C23_run (s := s) S hready hp hq rfl
    (extendInhomoF_homogeneous hready hh) hf hfit hlsq roots bc hM ex
  exact ⟨f, hf, ap, res, h1, h2, h5, h7⟩

/-- everything in `C23_arc` is met by the shipped arc (`R = 2.3`, `a = π/4`, `AD_len = 2π`) with `k = 0` on the
shipped grids (`N` even, at least 16), with the basis sizes of the table -/
example {b : Brentq} (hb : BrentqSpec b) (m : ℕ) (hm : 8 ≤ m) :
    ∃ n, n + 1 = 2 * m ∧ (2 * π / (n + 1 : ℕ) * √2 * (1 + 1 / sin (π / 4 / 2)) < 2.3) ∧
      ((2.3 : ℝ) < 2 * π / 2 - 2 * π / (n + 1 : ℕ)) ∧ NoZeroEig n 4 (2 * π) 0 ∧
      (∃ i j : ℤ, 1 ≤ i ∧ i ≤ n ∧ 1 ≤ j ∧ j ≤ n ∧ getCoord (2 * π) (n + 1) i j ∈ Domain (π / 4) (arcR 2.3)) ∧
      (∃ fit : Chebfit, IsChebfit fit) ∧ ∃ lstsq : Lstsq, IsLstsq lstsq := by
  have hpi := pi_pos
  have hpi' := pi_gt_d2
  refine ⟨2 * m - 1, by omega, shipped_fine _ (by omega), ?_, ?_, ?_, exists_chebfit, exists_isLstsq⟩
  · have hN' : (16:ℝ) ≤ ((2 * m - 1 + 1 : ℕ) : ℝ) := by exact_mod_cast (by omega : 16 ≤ 2 * m - 1 + 1)
    have : 2 * π / ((2 * m - 1 + 1 : ℕ) : ℝ) ≤ 2 * π / 16 := by gcongr
    linarith
  · intro ev hev p q
    obtain ⟨ev', hev', -, hneg⟩ := C15_eigenvals (n := 2 * m - 1) (order := 4) (Or.inr rfl) (2 * π) 0
    have : ev = ev' := Except.ok.inj (hev.symm.trans hev')
    rw [this]
    exact (hneg rfl (by positivity) p q).ne
  · refine ⟨m, m, by omega, by omega, by omega, by omega, ?_⟩
    have hm0 : (m : ℝ) ≠ 0 := by
      have : m ≠ 0 := by omega
      exact_mod_cast this
    have : getCoord (2 * π) (2 * m - 1 + 1) ((m : ℤ) : ℝ) ((m : ℤ) : ℝ) = (0, 0) := by
      unfold getCoord
      have e : ((2 * m - 1 + 1 : ℕ) : ℝ) = 2 * m := by
        rw [show 2 * m - 1 + 1 = 2 * m by omega]; push_cast; ring
      rw [e]
      have e2 : (m : ℝ) / (2 * m) = 1 / 2 := by field_simp
      ext <;> simp [e2]
    rw [this]
    exact ⟨0, 2 * π, by linarith, le_rfl, le_rfl, by norm_num [arcR], by simp [polarPoint]⟩

end Pot
