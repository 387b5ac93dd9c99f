import Verif.Proofs.PolarSolvable
import Verif.Proofs.PolarCertAll
import Verif.Props.MainZ

/-! # C112: when the linear system of `ps/polarfd.py` has exactly one solution -/

namespace Pot
open Real Spec

/-- **C112** the homogeneous compact scheme with zero boundary values has only the zero solution if and only if for none of the `N - 1`
angular modes the three-term recurrence along the radius, with zero at both ends, has another solution. -/
theorem C112_modes {h t k : ℝ} {ρ : ℤ → ℝ} (ht : t ≠ 0) (N : ℕ) :
    SchemeRegular h t k ρ N ↔ ∀ j, 0 < j → j < N → ModeRegular h t k ρ N j := schemeRegular_iff ht N

/-- two vectors with the same array are equal -/
theorem pfArray_inj {p : PolarFD} {z z' : List ℂ} (hz : z.length = (p.N + 1) ^ 2) (hz' : z'.length = (p.N + 1) ^ 2)
    (h : ∀ m l : ℕ, m ≤ p.N → l ≤ p.N → pfArray p z m l = pfArray p z' m l) : z = z' := by
  apply List.ext_getElem (hz.trans hz'.symm)
  intro i h1 h2
  obtain ⟨⟨m, l⟩, ⟨a1, a2, a3, a4⟩, he⟩ := (C48_index p).surjOn (show (i : ℤ) ∈ {i : ℤ | 0 ≤ i ∧ i < (p.N + 1) ^ 2} from
    ⟨by omega, by rw [hz] at h1; exact_mod_cast h1⟩)
  dsimp only at a1 a2 a3 a4 he
  obtain ⟨m, rfl⟩ := Int.eq_ofNat_of_zero_le a1
  obtain ⟨l, rfl⟩ := Int.eq_ofNat_of_zero_le a3
  have := h m l (by omega) (by omega)
  unfold pfArray listGet at this
  simp only [he, Int.toNat_natCast, List.getElem?_eq_getElem h1, List.getElem?_eq_getElem h2] at this
  exact Except.ok.inj this

/-- the data zero -/
def zeroData (k : ℝ) : PfData := ⟨k, 0, 0, 0, 0, 0, 0, 0, 0⟩

theorem polarBc_zero (N : ℕ) (r th : ℕ → ℝ) (m l : ℕ) : polarBc N r th 0 0 0 0 m l = 0 := by
  unfold polarBc
  split_ifs <;> rfl

theorem fd4Rhs_zero (p : PolarFD) (k : ℝ) (m l : ℤ) : fd4Rhs p (zeroData k) m l = 0 := by
  simp [fd4Rhs, zeroData]

/-- **C112** the homogeneous scheme has only the zero solution if and only if, for all boundary values and all sources, `solve` builds a
system that has exactly one solution. -/
theorem C112_solvable (p : PolarFD) (k : ℝ) (hN : 1 ≤ p.N) (h1 : p.hr ≠ 0) (h2 : p.hth ≠ 0) (h3 : ∀ m : ℕ, m ≤ p.N → p.getR m ≠ 0) :
    SchemeRegular p.hr p.hth k p.rho p.N ↔ ∀ d : PfData, d.k = k → ∃ s, pfSystem p d = .ok s ∧ ∃! z, PfSolves s z := by
  constructor
  · rintro hS d rfl
    obtain ⟨V, hb, hin⟩ := scheme_exists hS
      (polarBc p.N (fun m => p.R0 + m * p.hr) (fun l => p.a + l * p.hth) d.phiInit d.phi0 d.phi1 d.phi2) (fun m l => fd4Rhs p d m l)
    obtain ⟨s, hs, hz⟩ := C48_converse p d hN h1 h2 h3 V hb hin
    refine ⟨s, hs, _, hz, fun z' hz' => ?_⟩
    obtain ⟨s', hs', hlen, -⟩ := C48_system p d hN h1 h2 h3
    rw [hs] at hs'
    cases hs'
    have go : ∀ z, PfSolves s z → ∃ V : ℤ → ℤ → ℂ, (∀ m l : ℕ, m ≤ p.N → l ≤ p.N → pfArray p z m l = .ok (V m l)) ∧
        (∀ m l : ℕ, m ≤ p.N → l ≤ p.N → m = 0 ∨ m = p.N ∨ l = 0 ∨ l = p.N →
          V m l = polarBc p.N (fun m => p.R0 + m * p.hr) (fun l => p.a + l * p.hth) d.phiInit d.phi0 d.phi1 d.phi2 m l) ∧
        (∀ m l : ℕ, 0 < m → m < p.N → 0 < l → l < p.N → polarL4 p.hr p.hth d.k p.rho V m l = fd4Rhs p d m l) := by
      intro z hz
      obtain ⟨z1, hz1, V, hV⟩ := C48_solve (fun _ _ => z) p d hN h1 h2 h3 (fun s1 hs1 => by
        rw [hs] at hs1
        cases hs1
        exact hz)
      unfold pfSolve at hz1
      rw [hs, ok_bind] at hz1
      cases hz1
      exact ⟨V, hV⟩
    obtain ⟨V1, a1, b1, c1⟩ := go _ hz'
    obtain ⟨V2, a2, b2, c2⟩ := go _ hz
    have hdiff := hS (fun m l => V1 m l + (-1) * V2 m l) (fun m l hm hl he => by rw [b1 m l hm hl he, b2 m l hm hl he]; ring)
      (fun m l m0 m1 l0 l1 => by
        rw [polarL4_add, polarL4_smul p.hr p.hth d.k p.rho (-1) V2, c1 m l m0 m1 l0 l1, c2 m l m0 m1 l0 l1]
        ring)
    refine pfArray_inj (hz'.1.trans hlen) (hz.1.trans hlen) fun m l hm hl => ?_
    rw [a1 m l hm hl, a2 m l hm hl]
    have := hdiff m l hm hl
    rw [show V1 m l = V2 m l by linear_combination this]
  · intro hu V hb hin m l hm hl
    obtain ⟨s, hs, z, -, huniq⟩ := hu (zeroData k) rfl
    have e : ∀ W : ℤ → ℤ → ℂ, (∀ m l : ℕ, m ≤ p.N → l ≤ p.N → m = 0 ∨ m = p.N ∨ l = 0 ∨ l = p.N → W m l = 0) →
        (∀ m l : ℕ, 0 < m → m < p.N → 0 < l → l < p.N → polarL4 p.hr p.hth k p.rho W m l = 0) → PfSolves s (gridVector p.N W) := by
      intro W hWb hWin
      obtain ⟨s', hs', h⟩ := C48_converse p (zeroData k) hN h1 h2 h3 W
        (fun m l hm hl he => by rw [hWb m l hm hl he]; exact (polarBc_zero _ _ _ m l).symm)
        (fun m l m0 m1 l0 l1 => by rw [fd4Rhs_zero]; exact hWin m l m0 m1 l0 l1)
      rw [hs] at hs'
      cases hs'
      exact h
    have q1 := huniq _ (e V hb hin)
    have q2 := huniq _ (e (fun _ _ => 0) (fun _ _ _ _ _ => rfl) fun m l _ _ _ _ => by
      simp [polarL4, lapR, angPart, drr, dr, dthth])
    have := gridVector_getD p V (m := m) (l := l) (by omega) (by omega) (by omega) (by omega)
    rw [q1, ← q2, gridVector_getD p _ (by omega) (by omega) (by omega) (by omega)] at this
    exact this.symm

/-- **C112** on every grid that keeps away from the vertex, all but finitely many wave numbers make the system uniquely solvable for all
data. -/
theorem C112_generic (p : PolarFD) (hN : 1 ≤ p.N) (h0 : 0 < p.R0) (h1 : 0 < p.hr) (h2 : p.hth ≠ 0) :
    {k : ℝ | ¬ ∀ d : PfData, d.k = k → ∃ s, pfSystem p d = .ok s ∧ ∃! z, PfSolves s z}.Finite := by
  have hr : ∀ m : ℕ, p.getR m = p.R0 + m * p.hr := fun m => rfl
  have h3 : ∀ m : ℕ, m ≤ p.N → p.getR m ≠ 0 := fun m _ => by rw [hr]; positivity
  refine (bad_finite h1.ne' h2 (ρ := p.rho) (N := p.N) fun m m0 _ => ?_).subset fun k hk => ?_
  · have e : p.rho m = p.R0 + m * p.hr := rfl
    have m1 : (1 : ℝ) ≤ m := by exact_mod_cast m0
    rw [e, abs_of_pos h1]
    exact ⟨by positivity, by nlinarith⟩
  · rw [Set.mem_ofPred_eq, ← C112_solvable p k hN h1.ne' h2 h3] at hk
    exact hk

example : ∃ p, pfInit 4 (π / 4) (4 / 7) (1 / 10) (23 / 10) = .ok p ∧ 1 ≤ p.N ∧ 0 < p.R0 ∧ 0 < p.hr ∧ p.hth ≠ 0 := by
  refine ⟨_, if_neg (by norm_num), by norm_num, by norm_num, by norm_num, ?_⟩
  have := pi_pos
  dsimp only
  have h : 2 * π - π / 4 = 7 * π / 4 := by ring
  rw [h]
  positivity

theorem zArcR_cells (bname : String) : ∃ D : ℕ, (D = 88 ∨ D = 94 ∨ D = 108 ∨ D = 89 ∨ D = 91) ∧ zArcR bname - 1 / 10 = (D : ℝ) / 40 := by
  unfold zArcR probR bet0
  split
  · exact ⟨94, by norm_num, by norm_num⟩
  · exact ⟨108, by norm_num, by norm_num⟩
  · exact ⟨89, by norm_num, by norm_num⟩
  · exact ⟨91, by norm_num, by norm_num⟩
  · exact ⟨88, by norm_num, by norm_num⟩

/-- **C112** for the shipped wedge, inner radius, five outer radii and two wave numbers, the system on the grids of 1, 2, 4, 8, 16, 32
and 64 cells has exactly one solution for all data. -/
theorem C112_shipped (bname : String) {n : ℕ} (hn : n ≤ 6) {d : PfData} (hk : d.k = ihK ∨ d.k = quadK) :
    ∃ p, pfInit (2 ^ n) probA probNu zR0 (zArcR bname) = .ok p ∧ ∃ s, pfSystem p d = .ok s ∧ ∃! z, PfSolves s z := by
  obtain ⟨D, hD, hR⟩ := zArcR_cells bname
  have D0 : (0 : ℝ) < D := by rcases hD with rfl | rfl | rfl | rfl | rfl <;> norm_num
  have hpi := pi_pos
  have hN : 1 ≤ 2 ^ n := Nat.one_le_two_pow
  set p : PolarFD := ⟨2 ^ n, probA, probNu, zR0, zArcR bname, (zArcR bname - zR0) / ((2 ^ n : ℕ) : ℝ), (2 * π - probA) / ((2 ^ n : ℕ) : ℝ)⟩ with hp
  have e1 : p.hr = D / 40 / 2 ^ n := by
    change (zArcR bname - zR0) / (2 ^ n : ℕ) = _
    rw [show zR0 = 1 / 10 from by unfold zR0; norm_num, hR]
    push_cast
    rfl
  have e2 : p.hth = 7 * π / 4 / 2 ^ n := by
    change (2 * π - probA) / (2 ^ n : ℕ) = _
    unfold probA
    push_cast
    ring
  have e3 : p.R0 = 1 / 10 := by
    change zR0 = _
    unfold zR0
    norm_num
  have g1 : 0 < p.hr := by rw [e1]; positivity
  have g2 : 0 < p.hth := by rw [e2]; positivity
  have hK : ∃ K : ℕ, (K = 27 ∨ K = 43) ∧ d.k = (K : ℝ) / 4 := by
    rcases hk with h | h
    · exact ⟨27, by norm_num, by rw [h, ihK]; norm_num⟩
    · exact ⟨43, by norm_num, by rw [h, quadK]; norm_num⟩
  obtain ⟨K, hK, hkK⟩ := hK
  have hS : SchemeRegular p.hr p.hth d.k p.rho (2 ^ n) := schemeStable_regular (scheme_cert hn hD hK e1 e2 hkK (ρ := p.rho) (fun m => by
    change p.R0 + (m : ℝ) * p.hr = _
    rw [e3]))
  refine ⟨p, if_neg (by positivity), ?_⟩
  exact (C112_solvable p d.k hN g1.ne' g2.ne' fun m _ => by
    change p.R0 + (m : ℝ) * p.hr ≠ 0
    rw [e3]
    positivity).1 hS d rfl

/-- the linear solver returns the solution of every system that has exactly one -/
def DirectSolver (spsolve : Spsolve) : Prop := ∀ s : PfSys, (∃! z, PfSolves s z) → PfSolves s (spsolve s.entries s.rhs)

/-- **C112** so the array `v` of `runz.py`, which C90 describes under the hypothesis that the linear solver returned a solution, satisfies
the boundary conditions and the compact scheme on the grids of at most 64 cells as soon as the solver returns the solution of every
system that has exactly one. -/
theorem C112_runz {iter : Iter} {lib : ZLib} (hsp : DirectSolver lib.spsolve) {name : String} {zp : ZProblem}
    (hzp : (zTable lib.jv).lookup name = some zp) {bname : String} {r : ℝ → ℝ} {order : ℕ} {z1 : List ℝ} {size : ℕ × ℕ} {n e : ℕ} (he : e ≤ 6)
    (hn : n + 1 = 2 ^ e) {v : List (List ℂ)} {ev : ℝ} {u : Arr n} {eu : Option ℝ}
    (h : ZGridOutcome iter lib zp bname r order false z1 size v ev u eu) :
    ∃ V : ℤ → ℤ → ℂ, (∀ m l : ℕ, m ≤ n + 1 → l ≤ n + 1 → rowsGet v m l = .ok (V m l)) ∧
      PolarSolution zp.k (π / 4) (1 / 10) (zArcR bname) (n + 1) (zp.vSeries (1 / 10))
        (fun th => (∑ j ∈ Finset.range 7, z1.getD j 0 * sin (((j : ℝ) + 1) * (4 / 7) * (th - π / 4))) +
          (zp.g (zArcR bname) th + zQ zp.k (π / 4) zp.g (zArcR bname) th)) zp.phi1 zp.phi2 V := by
  obtain ⟨V, F, d, ex, φ, ⟨-, -, hent⟩, -, hsol, -⟩ := h
  refine ⟨V, hent, ?_⟩
  rw [if_neg (by simp)] at hsol
  refine hsol fun p s hp hs => hsp s ?_
  have hk : zp.k = ihK ∨ zp.k = quadK := by
    unfold zTable at hzp
    simp only [List.lookup_cons, List.lookup_nil] at hzp
    split at hzp
    · cases hzp; exact Or.inl rfl
    split at hzp
    · cases hzp; exact Or.inl rfl
    split at hzp
    · cases hzp; exact Or.inr rfl
    · cases hzp
  obtain ⟨p', hp', s', hs', hu⟩ := C112_shipped bname he
    (d := zData z1 (zGq zp) (myLambdify zp.vSeries) zp.phi1 zp.phi2 zp.k (π / 4) (4 / 7) (1 / 10) (zArcR bname) 7) hk
  rw [← hn, probNu_eq, show probA = π / 4 from rfl, show zR0 = 1 / 10 from by unfold zR0; norm_num, hp] at hp'
  cases hp'
  rw [hs] at hs'
  cases hs'
  exact hu

open Classical in
/-- such a solver exists -/
example : ∃ spsolve : Spsolve, DirectSolver spsolve ∧ ∀ A b, (spsolve A b).length = b.length := by
  have key : ∀ {s s' : PfSys} {z : List ℂ}, s'.entries = s.entries → s'.rhs = s.rhs → PfSolves s' z → PfSolves s z := by
    rintro s s' z h1 h2 ⟨h3, h4⟩
    rw [h2] at h3 h4
    refine ⟨h3, fun i hi => ?_⟩
    have := h4 i hi
    unfold pfRowOf at this ⊢
    rwa [h1] at this
  refine ⟨fun A b => if h : ∃ s : PfSys, s.entries = A ∧ s.rhs = b ∧ ∃ z, PfSolves s z then h.choose_spec.2.2.choose else List.replicate b.length 0,
    fun s hs => ?_, fun A b => ?_⟩
  · have h : ∃ s' : PfSys, s'.entries = s.entries ∧ s'.rhs = s.rhs ∧ ∃ z, PfSolves s' z := ⟨s, rfl, rfl, hs.exists⟩
    change PfSolves s (if h : _ then _ else _)
    rw [dif_pos h]
    refine key h.choose_spec.1 h.choose_spec.2.1 h.choose_spec.2.2.choose_spec
  · dsimp only
    split
    · rename_i h
      rw [h.choose_spec.2.2.choose_spec.1, h.choose_spec.2.1]
    · simp

/-- the recurrence of the only mode of a grid of two cells -/
theorem two_cells (k : ℝ) (w : ℤ → ℂ) (w0 : w 0 = 0) (w2 : w 2 = 0) :
    modeL 1 1 k (fun m => m + 1) (modeS 1 2 1) w 1 = (33 / 48 * (k : ℂ) ^ 2 - 201 / 96) * w 1 := by
  have hs : modeS 1 2 1 = 2 := by
    unfold modeS
    rw [show π * ((1 : ℕ) : ℝ) / ((2 : ℕ) : ℝ) = π / 2 by push_cast; ring, cos_pi_div_two]
    norm_num
  rw [hs]
  simp only [modeL, rad1]
  rw [show (1 : ℤ) + 1 = 2 from rfl, show (1 : ℤ) - 1 = 0 from rfl, w0, w2]
  push_cast
  ring

/-- a regular scheme -/
example : SchemeRegular 1 1 0 (fun m => m + 1) 2 := by
  rw [C112_modes one_ne_zero]
  intro j j0 j1 w w0 w2 hw m hm
  obtain rfl : j = 1 := by omega
  have h := hw 1 (by norm_num) (by norm_num)
  rw [show ((1 : ℕ) : ℤ) = 1 from rfl, two_cells 0 w w0 w2] at h
  interval_cases m
  · exact w0
  · rcases mul_eq_zero.1 h with h | h
    · norm_num at h
    · exact h
  · exact w2

/-- the same grid with `k² = 67/22`: the scheme is not regular, so by `C112_solvable` there are data for which the system does not have
exactly one solution -/
example : ¬ SchemeRegular 1 1 (√(67 / 22)) (fun m => m + 1) 2 := by
  rw [C112_modes one_ne_zero]
  intro h
  have h1 := h 1 (by norm_num) (by norm_num) (fun m => if m = 1 then 1 else 0) (by norm_num) (by norm_num) (fun m m0 m1 => by
    obtain rfl : m = 1 := by omega
    rw [show ((1 : ℕ) : ℤ) = 1 from rfl, two_cells _ _ (by norm_num) (by norm_num)]
    have : ((√(67 / 22) : ℝ) : ℂ) ^ 2 = 67 / 22 := by
      rw [← Complex.ofReal_pow, Real.sq_sqrt (by norm_num)]
      push_cast
      rfl
    rw [this]
    norm_num) 1 (by norm_num)
  simp at h1

end Pot
