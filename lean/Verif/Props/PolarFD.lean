import Verif.Proofs.PolarSys
import Verif.Proofs.PolarConsistency
import Verif.Proofs.JetExamples

/-! # Properties C48, C49: the polar finite-difference system -/

namespace Pot
open Spec Real

/-- the radius of circle `m` -/
noncomputable def PolarFD.rho (p : PolarFD) (m : ℤ) : ℝ := p.getR m

/-- **C48** the grid of `PolarFD.__init__` runs from radius `R0` to `R1` and from angle `a` to `2π` in `N` equal steps. -/
theorem C48_grid {N : ℕ} {a nu R0 R1 : ℝ} {p : PolarFD} (h : pfInit N a nu R0 R1 = .ok p) :
    p.N = N ∧ p.nu = nu ∧ p.getR 0 = R0 ∧ p.getR N = R1 ∧ p.getTh 0 = a ∧ p.getTh N = 2 * π ∧
      (∀ m : ℝ, p.getR (m + 1) - p.getR m = p.hr) ∧ ∀ l : ℝ, p.getTh (l + 1) - p.getTh l = p.hth := by
  unfold pfInit at h
  by_cases hN : N = 0
  · rw [if_pos hN] at h; cases h
  · rw [if_neg hN] at h
    cases h
    have hN' : (N : ℝ) ≠ 0 := by exact_mod_cast hN
    unfold PolarFD.getR PolarFD.getTh
    refine ⟨rfl, rfl, ?_, ?_, ?_, ?_, fun m => ?_, fun l => ?_⟩ <;> field_simp <;> ring

example : ∃ p, pfInit 4 (π / 4) (4 / 7) (1 / 10) (23 / 10) = .ok p := ⟨_, if_neg (by norm_num)⟩

/-- **C49** the nine coefficients of `set_fd4` are those of the compact scheme. -/
theorem C49_scheme (p : PolarFD) (k : ℝ) (m l : ℤ) (h1 : p.hr ≠ 0) (h2 : p.hth ≠ 0) (h3 : p.getR m ≠ 0)
    (h4 : p.getR (m - 1) ≠ 0) (h5 : p.getR (m + 1) ≠ 0) (V : ℤ → ℤ → ℂ) :
    (pfStencil.map fun x => (fd4Coef p k m x.1 x.2 : ℂ) * V (m + x.1) (l + x.2)).sum
      = polarL4 p.hr p.hth k p.rho V m l := by
  have e0 : p.getR ((m : ℝ) - 1 / 2) = p.getR m - p.hr / 2 := by unfold PolarFD.getR; ring
  have e1 : p.getR ((m : ℝ) + 1 / 2) = p.getR m + p.hr / 2 := by unfold PolarFD.getR; ring
  have c1 : p.rho (m + 1) = p.getR ((m : ℝ) + 1) := by unfold PolarFD.rho; push_cast; rfl
  have c2 : p.rho (m - 1) = p.getR ((m : ℝ) - 1) := by unfold PolarFD.rho; push_cast; rfl
  have c3 : p.rho m = p.getR m := rfl
  simp only [pfStencil, List.flatMap_cons, List.flatMap_nil, List.map_cons, List.map_nil, List.cons_append,
    List.nil_append, List.append_nil, List.sum_cons, List.sum_nil, polarL4, lapR, angPart, drr, dr, dthth, fd4Coef]
  rw [e0, e1, c1, c2, c3]
  generalize p.getR m = r at *
  generalize p.getR ((m : ℝ) - 1) = rm at *
  generalize p.getR ((m : ℝ) + 1) = rp at *
  generalize p.hr = h at *
  generalize p.hth = t at *
  have h1' : (h : ℂ) ≠ 0 := by exact_mod_cast h1
  have h2' : (t : ℂ) ≠ 0 := by exact_mod_cast h2
  have h3' : (r : ℂ) ≠ 0 := by exact_mod_cast h3
  have h4' : (rm : ℂ) ≠ 0 := by exact_mod_cast h4
  have h5' : (rp : ℂ) ≠ 0 := by exact_mod_cast h5
  norm_num
  simp only [← sub_eq_add_neg]
  field_simp
  ring

/-- `polarL4` on the samples of a function, in terms of difference quotients of the function -/
theorem polarL4_samples (p : PolarFD) (k : ℝ) (u : ℝ × ℝ → ℂ) (m l : ℤ) :
    polarL4 p.hr p.hth k p.rho (fun m l => u (p.getR m, p.getTh l)) m l =
      (Qrr u p.hr (p.getR m) (p.getTh l) + Qr u p.hr (p.getR m) (p.getTh l) / p.getR m)
      + (Qtt u p.hth (p.getR m) (p.getTh l) / (p.getR m : ℂ) ^ 2 + (k : ℂ) ^ 2 * u (p.getR m, p.getTh l))
      + (p.hr : ℂ) ^ 2 / 12 * (Qrr (fun q => Qtt u p.hth q.1 q.2 / (q.1 : ℂ) ^ 2 + (k : ℂ) ^ 2 * u q) p.hr (p.getR m) (p.getTh l)
          + Qr (fun q => Qtt u p.hth q.1 q.2 / (q.1 : ℂ) ^ 2 + (k : ℂ) ^ 2 * u q) p.hr (p.getR m) (p.getTh l) / p.getR m
          + (Qtt u p.hth (p.getR m) (p.getTh l) / (p.getR m : ℂ) ^ 2 + (k : ℂ) ^ 2 * u (p.getR m, p.getTh l)) / (p.getR m : ℂ) ^ 2
          + 2 / (p.getR m : ℂ) ^ 3 * Qr u p.hr (p.getR m) (p.getTh l))
      + (p.hth : ℂ) ^ 2 / 12 * Qtt (fun q => Qrr u p.hr q.1 q.2 + Qr u p.hr q.1 q.2 / q.1 + (k : ℂ) ^ 2 * u q) p.hth
          (p.getR m) (p.getTh l) := by
  have a1 : p.getR ((m + 1 : ℤ) : ℝ) = p.getR m + p.hr := by unfold PolarFD.getR; push_cast; ring
  have a2 : p.getR ((m - 1 : ℤ) : ℝ) = p.getR m - p.hr := by unfold PolarFD.getR; push_cast; ring
  have b1 : p.getTh ((l + 1 : ℤ) : ℝ) = p.getTh l + p.hth := by unfold PolarFD.getTh; push_cast; ring
  have b2 : p.getTh ((l - 1 : ℤ) : ℝ) = p.getTh l - p.hth := by unfold PolarFD.getTh; push_cast; ring
  simp only [polarL4, lapR, angPart, drr, dr, dthth, Qrr, Qr, Qtt, PolarFD.rho, a1, a2, b1, b2]
  ring

/-- **C49** fourth-order consistency with explicit constant: `u` solves the polar Helmholtz equation with source `f` near
the node, its partial derivatives up to order six are bounded by `M` and `1/r` by `K` on the box spanned by the nine
nodes. -/
theorem C49_consistency {Ω : Set (ℝ × ℝ)} {U F : ℕ → ℕ → ℝ × ℝ → ℂ} (hU : JetOn Ω 6 U) (hF : JetOn Ω 2 F)
    (p : PolarFD) (d : PfData) (he : PolarHelmholtz Ω d.k U (F 0 0)) (h0 : ∀ q ∈ Ω, q.1 ≠ 0)
    (hf : ∀ r th, (r, th) ∈ Ω → d.f r th = F 0 0 (r, th) ∧ d.dFr r th = F 1 0 (r, th) ∧ d.d2Fr r th = F 2 0 (r, th) ∧
      d.d2Fth r th = F 0 2 (r, th))
    {m l : ℤ} {M K : ℝ} (hr : 0 < p.hr) (ht : 0 < p.hth)
    (hbox : ∀ s w, |s| ≤ p.hr → |w| ≤ p.hth → (p.getR m + s, p.getTh l + w) ∈ Ω)
    (hM : ∀ i j, i + j ≤ 6 → ∀ s w, |s| ≤ p.hr → |w| ≤ p.hth → ‖U i j (p.getR m + s, p.getTh l + w)‖ ≤ M)
    (hK : ∀ s, |s| ≤ p.hr → 0 < p.getR m + s ∧ (p.getR m + s)⁻¹ ≤ K) (hK1 : 1 ≤ K) :
    ‖(pfStencil.map fun x => (fd4Coef p d.k m x.1 x.2 : ℂ) * U 0 0 (p.getR (m + x.1 : ℤ), p.getTh (l + x.2 : ℤ))).sum
      - fd4Rhs p d m l‖ ≤ 3 * (M * K ^ 6 * (1 + d.k ^ 2)) * (p.hr ^ 4 + p.hth ^ 4) := by
  have hs1 : p.getR ((m : ℝ) + 1) = p.getR m + p.hr := by unfold PolarFD.getR; ring
  have hs2 : p.getR ((m : ℝ) - 1) = p.getR m + -p.hr := by unfold PolarFD.getR; ring
  have n0 : p.getR m ≠ 0 := by simpa using (hK 0 (by simpa using hr.le)).1.ne'
  have n1 : p.getR ((m : ℝ) + 1) ≠ 0 := by rw [hs1]; exact (hK p.hr (by rw [abs_of_pos hr])).1.ne'
  have n2 : p.getR ((m : ℝ) - 1) ≠ 0 := by rw [hs2]; exact (hK (-p.hr) (by rw [abs_neg, abs_of_pos hr])).1.ne'
  rw [C49_scheme p d.k m l hr.ne' ht.ne' n0 n2 n1 (fun m l => U 0 0 (p.getR m, p.getTh l)), polarL4_samples]
  have hp : (p.getR m, p.getTh l) ∈ Ω := by
    simpa using hbox 0 0 (by simpa using hr.le) (by simpa using ht.le)
  obtain ⟨s0, s1, s2, s3⟩ := pSrc_eq hU hF he h0 _ _ hp
  obtain ⟨f0, f1, f2, f3⟩ := hf (p.getR m) (p.getTh l) hp
  have e : fd4Rhs p d m l = pSrc U d.k (p.getR m, p.getTh l)
      + (p.hr : ℂ) ^ 2 / 12 * (pSrcRR U d.k (p.getR m, p.getTh l) + pSrcR U d.k (p.getR m, p.getTh l) / p.getR m
        + pSrc U d.k (p.getR m, p.getTh l) / (p.getR m : ℂ) ^ 2)
      + (p.hth : ℂ) ^ 2 / 12 * pSrcTT U d.k (p.getR m, p.getTh l) := by
    have hc : (p.getR m : ℂ) ≠ 0 := by exact_mod_cast n0
    simp only [fd4Rhs, f0, f1, f2, f3, s0, s1, s2, s3]
    field_simp
    ring
  rw [e]
  exact polar_residual hU d.k hr ht hbox hM hK hK1

/-- **C48** `get_index` numbers the nodes without gaps or repetitions. -/
theorem C48_index (p : PolarFD) :
    Set.BijOn (fun x : ℤ × ℤ => p.getIndex x.1 x.2)
      {x | 0 ≤ x.1 ∧ x.1 ≤ p.N ∧ 0 ≤ x.2 ∧ x.2 ≤ p.N} {i | 0 ≤ i ∧ i < (p.N + 1) ^ 2} := by
  have hp : (0 : ℤ) < p.N + 1 := by positivity
  refine ⟨?_, ?_, ?_⟩
  · rintro ⟨m, l⟩ ⟨h1, h2, h3, h4⟩
    simp only [Set.mem_setOf_eq, PolarFD.getIndex] at *
    constructor <;> nlinarith
  · rintro ⟨m, l⟩ ⟨h1, h2, h3, h4⟩ ⟨m', l'⟩ ⟨h1', h2', h3', h4'⟩ h
    simp only [PolarFD.getIndex] at *
    have e : m = m' := by
      have a := Int.add_mul_ediv_right l m hp.ne'
      have b := Int.add_mul_ediv_right l' m' hp.ne'
      rw [Int.ediv_eq_zero_of_lt h3 (by omega), zero_add] at a
      rw [Int.ediv_eq_zero_of_lt h3' (by omega), zero_add] at b
      rw [← a, ← b]
      congr 1
      linarith
    subst e
    simp at h
    simp [h]
  · intro i hi
    simp only [Set.mem_setOf_eq] at hi
    refine ⟨(i / (p.N + 1), i % (p.N + 1)), ⟨Int.ediv_nonneg hi.1 hp.le, ?_, Int.emod_nonneg _ hp.ne', ?_⟩, ?_⟩
    · have : i / (p.N + 1) < (p.N : ℤ) + 1 := Int.ediv_lt_of_lt_mul hp (by nlinarith [hi.2])
      simp only; omega
    · have := Int.emod_lt_of_pos i hp
      simp only; omega
    · simp only [PolarFD.getIndex]
      rw [mul_comm]
      exact Int.mul_ediv_add_emod i (p.N + 1)

theorem pfStencil_perm : pfStencil.Perm (Finset.Icc (-1 : ℤ) 1 ×ˢ Finset.Icc (-1 : ℤ) 1).toList := by
  rw [List.perm_ext_iff_of_nodup (by decide) (Finset.nodup_toList _)]
  rintro ⟨x, y⟩
  simp only [pfStencil, List.mem_flatMap, List.mem_map, List.mem_cons, List.not_mem_nil, or_false, Finset.mem_toList,
    Finset.mem_product, Finset.mem_Icc, Prod.mk.injEq]
  constructor
  · rintro ⟨a, ha, b, hb, rfl, rfl⟩
    omega
  · rintro ⟨hx, hy⟩
    exact ⟨x, by omega, y, by omega, rfl, rfl⟩

/-- the equation of one node as it should be: a Dirichlet row on the boundary, the nine-point scheme inside -/
def PfNodeEq (p : PolarFD) (d : PfData) (m l : ℕ) (row : List (ℝ × ℤ)) (rhs : ℂ) : Prop :=
  ((m = 0 ∨ m = p.N ∨ l = 0 ∨ l = p.N) →
    row = [(1, (m * (p.N + 1) + l : ℤ))] ∧
    rhs = polarBc p.N (fun m => p.R0 + m * p.hr) (fun l => p.a + l * p.hth) d.phiInit d.phi0 d.phi1 d.phi2 m l) ∧
  (¬ (m = 0 ∨ m = p.N ∨ l = 0 ∨ l = p.N) →
    row.Perm ((Finset.Icc (-1 : ℤ) 1 ×ˢ Finset.Icc (-1 : ℤ) 1).toList.map fun x : ℤ × ℤ =>
      (fd4Coef p d.k m x.1 x.2, (m + x.1) * (p.N + 1) + (l + x.2))) ∧
    rhs = fd4Rhs p d m l)

theorem pfEqAt_node (p : PolarFD) (d : PfData) (m l : ℕ) :
    PfNodeEq p d m l (pfEqAt p d (m, l)).1 (pfEqAt p d (m, l)).2 := by
  constructor
  · intro h
    unfold pfEqAt
    rw [if_pos h]
    exact ⟨rfl, rfl⟩
  · intro h
    unfold pfEqAt
    rw [if_neg h]
    refine ⟨?_, rfl⟩
    exact pfStencil_perm.map fun x : ℤ × ℤ => (fd4Coef p d.k m x.1 x.2, p.getIndex (m + x.1) (l + x.2))

/-- **C48** for `N ≥ 1`, non-zero steps and no circle of radius zero, `solve` builds a square system with `(N+1)²`
equations: there is a numbering of the nodes by the row numbers such that every row is the equation of its node; all
columns are in range. -/
theorem C48_system (p : PolarFD) (d : PfData) (hN : 1 ≤ p.N) (h1 : p.hr ≠ 0) (h2 : p.hth ≠ 0)
    (h3 : ∀ m : ℕ, m ≤ p.N → p.getR m ≠ 0) :
    ∃ s, pfSystem p d = .ok s ∧ s.rhs.length = (p.N + 1) ^ 2 ∧ s.row = (p.N + 1) ^ 2 ∧
      (∀ e ∈ s.entries, e.2.1 < (p.N + 1) ^ 2 ∧ 0 ≤ e.2.2 ∧ e.2.2 < (p.N + 1) ^ 2) ∧
      ∃ num : ℕ × ℕ → ℕ, Set.BijOn num {x | x.1 ≤ p.N ∧ x.2 ≤ p.N} {i | i < (p.N + 1) ^ 2} ∧
        ∀ m l, m ≤ p.N → l ≤ p.N → PfNodeEq p d m l (pfRowOf s (num (m, l))) (s.rhs.getD (num (m, l)) 0) := by
  obtain ⟨s, hs, hr⟩ := pfSystem_rep p d hN h1 h2 h3
  have hlen : ((pfOrder p.N).map (pfEqAt p d)).length = (p.N + 1) ^ 2 := by rw [List.length_map, pfOrder_length hN]
  have hnum : ∀ m l, m ≤ p.N → l ≤ p.N → (pfOrder p.N).idxOf (m, l) < (pfOrder p.N).length := fun m l hm hl =>
    List.idxOf_lt_length_iff.2 ((mem_pfOrder hN m l).2 ⟨hm, hl⟩)
  refine ⟨s, hs, by rw [hr.rhs, List.length_map, hlen], by rw [hr.row, hlen], ?_, fun x => (pfOrder p.N).idxOf x, ⟨?_, ?_, ?_⟩, ?_⟩
  · intro e he
    refine ⟨hlen ▸ hr.row_lt e he, ?_⟩
    rw [hr.entries] at he
    simp only [List.mem_flatMap, List.mem_map] at he
    obtain ⟨⟨x, i⟩, hx, c, hc, rfl⟩ := he
    have hx' := (List.mem_zipIdx' hx).2
    have hxm : x ∈ (pfOrder p.N).map (pfEqAt p d) := by rw [hx']; exact List.getElem_mem _
    obtain ⟨⟨m, l⟩, hml, rfl⟩ := List.mem_map.1 hxm
    rw [mem_pfOrder hN] at hml
    have hb := (C48_index p).mapsTo
    have key : ∀ a b : ℤ, 0 ≤ a → a ≤ p.N → 0 ≤ b → b ≤ p.N → 0 ≤ p.getIndex a b ∧ p.getIndex a b < (p.N + 1) ^ 2 :=
      fun a b q1 q2 q3 q4 => hb (show (a, b) ∈ _ from ⟨q1, q2, q3, q4⟩)
    unfold pfEqAt at hc
    by_cases hbd : m = 0 ∨ m = p.N ∨ l = 0 ∨ l = p.N
    · rw [if_pos hbd] at hc
      simp only [List.mem_cons, List.not_mem_nil, or_false] at hc
      subst hc
      exact key m l (by omega) (by omega) (by omega) (by omega)
    · rw [if_neg hbd] at hc
      simp only [fd4Row, List.mem_map] at hc
      obtain ⟨y, hy, rfl⟩ := hc
      simp only [pfStencil, List.mem_flatMap, List.mem_map, List.mem_cons, List.not_mem_nil, or_false] at hy
      obtain ⟨a, ha, b, hb', rfl⟩ := hy
      exact key _ _ (by simp only; omega) (by simp only; omega) (by simp only; omega) (by simp only; omega)
  · rintro ⟨m, l⟩ ⟨hm, hl⟩
    have := hnum m l hm hl
    rwa [pfOrder_length hN] at this
  · rintro ⟨m, l⟩ ⟨hm, hl⟩ y _ h
    exact (List.idxOf_inj ((mem_pfOrder hN m l).2 ⟨hm, hl⟩)).1 h
  · intro i hi
    have hi' : i < (pfOrder p.N).length := by rw [pfOrder_length hN]; exact hi
    refine ⟨(pfOrder p.N)[i], ?_, List.Nodup.idxOf_getElem (pfOrder_nodup hN) i hi'⟩
    exact (mem_pfOrder hN _ _).1 (List.getElem_mem hi')
  · intro m l hm hl
    have hlt := hnum m l hm hl
    have hlt' : (pfOrder p.N).idxOf (m, l) < ((pfOrder p.N).map (pfEqAt p d)).length := by rwa [List.length_map]
    rw [hr.rowOf hlt', hr.rhs, ← List.getElem_eq_getD (h := by rw [List.length_map]; exact hlt')]
    have e : ((pfOrder p.N).map (pfEqAt p d))[(pfOrder p.N).idxOf (m, l)] = pfEqAt p d (m, l) := by
      rw [List.getElem_map, List.getElem_idxOf]
    dsimp only
    have e' : (((pfOrder p.N).map (pfEqAt p d)).map fun x => x.2)[(pfOrder p.N).idxOf (m, l)]'(by
        rw [List.length_map]; exact hlt') = (pfEqAt p d (m, l)).2 := by
      rw [List.getElem_map, e]
    rw [e, e']
    exact pfEqAt_node p d m l

/-- the vector `z` solves the linear system -/
def PfSolves (s : PfSys) (z : List ℂ) : Prop :=
  z.length = s.rhs.length ∧
    ∀ i < s.rhs.length, ((pfRowOf s i).map fun c => (c.1 : ℂ) * z.getD c.2.toNat 0).sum = s.rhs.getD i 0

/-- **C48, C49** whenever the linear solver returns a solution, the array made of it takes the prescribed boundary values
and satisfies the compact scheme at every inner node. -/
theorem C48_solve (spsolve : Spsolve) (p : PolarFD) (d : PfData) (hN : 1 ≤ p.N) (h1 : p.hr ≠ 0) (h2 : p.hth ≠ 0)
    (h3 : ∀ m : ℕ, m ≤ p.N → p.getR m ≠ 0)
    (hsp : ∀ s, pfSystem p d = .ok s → PfSolves s (spsolve s.entries s.rhs)) :
    ∃ z, pfSolve spsolve p d = .ok z ∧ ∃ V : ℤ → ℤ → ℂ,
      (∀ m l : ℕ, m ≤ p.N → l ≤ p.N → pfArray p z m l = .ok (V m l)) ∧
      (∀ m l : ℕ, m ≤ p.N → l ≤ p.N → m = 0 ∨ m = p.N ∨ l = 0 ∨ l = p.N →
        V m l = polarBc p.N (fun m => p.R0 + m * p.hr) (fun l => p.a + l * p.hth) d.phiInit d.phi0 d.phi1 d.phi2 m l) ∧
      (∀ m l : ℕ, 0 < m → m < p.N → 0 < l → l < p.N →
        polarL4 p.hr p.hth d.k p.rho V m l = fd4Rhs p d m l) := by
  obtain ⟨s, hs, hlen, -, -, num, hnum, heq⟩ := C48_system p d hN h1 h2 h3
  obtain ⟨hz, hrow⟩ := hsp s hs
  set z := spsolve s.entries s.rhs with hzdef
  refine ⟨z, ?_, fun m l => z.getD (p.getIndex m l).toNat 0, ?_, ?_, ?_⟩
  · unfold pfSolve
    rw [hs, ok_bind]
    rfl
  · intro m l hm hl
    have hi := (C48_index p).mapsTo (show ((m : ℤ), (l : ℤ)) ∈ _ from ⟨by omega, by omega, by omega, by omega⟩)
    simp only [Set.mem_setOf_eq] at hi
    have hlt : (p.getIndex m l).toNat < z.length := by
      rw [hz, hlen]
      zify
      rw [Int.toNat_of_nonneg hi.1]
      exact hi.2
    unfold pfArray listGet
    simp only [List.getElem?_eq_getElem hlt, List.getD_eq_getElem?_getD, Option.getD_some]
    try rfl
  · intro m l hm hl hb
    obtain ⟨e1, e2⟩ := (heq m l hm hl).1 hb
    have h := hrow (num (m, l)) (hlen ▸ hnum.mapsTo (show (m, l) ∈ _ from ⟨hm, hl⟩))
    rw [e1, e2] at h
    simpa [PolarFD.getIndex] using h
  · intro m l hm hm' hl hl'
    obtain ⟨e1, e2⟩ := (heq m l hm'.le hl'.le).2 (by omega)
    have h := hrow (num (m, l)) (hlen ▸ hnum.mapsTo (show (m, l) ∈ _ from ⟨hm'.le, hl'.le⟩))
    have c1 : p.getR ((m : ℝ) + 1) = p.getR ((m + 1 : ℕ) : ℝ) := by push_cast; rfl
    have c2 : p.getR ((m : ℝ) - 1) = p.getR ((m - 1 : ℕ) : ℝ) := by rw [Nat.cast_sub (by omega)]; push_cast; rfl
    rw [← C49_scheme p d.k m l h1 h2 (h3 m hm'.le) (by push_cast; rw [c2]; exact h3 _ (by omega))
      (by push_cast; rw [c1]; exact h3 _ (by omega)), ← e2, ← h, (e1.map _).sum_eq, List.map_map,
      (pfStencil_perm.map _).sum_eq]
    rfl

/-- the values of a grid function in the order of `get_index` -/
def gridVector (N : ℕ) (V : ℤ → ℤ → ℂ) : List ℂ :=
  (List.range ((N + 1) ^ 2)).map fun i : ℕ => V (i / (N + 1) : ℕ) (i % (N + 1) : ℕ)

theorem gridVector_getD (p : PolarFD) (V : ℤ → ℤ → ℂ) {m l : ℤ} (h1 : 0 ≤ m) (h2 : m ≤ p.N) (h3 : 0 ≤ l) (h4 : l ≤ p.N) :
    (gridVector p.N V).getD (m * (p.N + 1) + l).toNat 0 = V m l := by
  obtain ⟨m, rfl⟩ := Int.eq_ofNat_of_zero_le h1
  obtain ⟨l, rfl⟩ := Int.eq_ofNat_of_zero_le h3
  have hm : m ≤ p.N := by exact_mod_cast h2
  have hl : l ≤ p.N := by exact_mod_cast h4
  have e : ((m : ℤ) * (p.N + 1) + l).toNat = l + m * (p.N + 1) := by
    have : ((m : ℤ) * (p.N + 1) + l) = ((l + m * (p.N + 1) : ℕ) : ℤ) := by push_cast; ring
    rw [this, Int.toNat_natCast]
  have hlt : l + m * (p.N + 1) < (p.N + 1) ^ 2 := by nlinarith
  rw [e, gridVector, List.getD_eq_getElem?_getD]
  simp only [List.getElem?_map, List.getElem?_range hlt, Option.map_some, Option.getD_some]
  rw [Nat.add_mul_div_right _ _ (by omega), Nat.div_eq_of_lt (by omega), Nat.add_mul_mod_self_right, Nat.mod_eq_of_lt (by omega),
    zero_add]

/-- **C48** the converse: every grid function with the prescribed boundary values that satisfies the compact scheme solves the
system; the system says nothing else. -/
theorem C48_converse (p : PolarFD) (d : PfData) (hN : 1 ≤ p.N) (h1 : p.hr ≠ 0) (h2 : p.hth ≠ 0)
    (h3 : ∀ m : ℕ, m ≤ p.N → p.getR m ≠ 0) (V : ℤ → ℤ → ℂ)
    (hb : ∀ m l : ℕ, m ≤ p.N → l ≤ p.N → m = 0 ∨ m = p.N ∨ l = 0 ∨ l = p.N →
        V m l = polarBc p.N (fun m => p.R0 + m * p.hr) (fun l => p.a + l * p.hth) d.phiInit d.phi0 d.phi1 d.phi2 m l)
    (hin : ∀ m l : ℕ, 0 < m → m < p.N → 0 < l → l < p.N → polarL4 p.hr p.hth d.k p.rho V m l = fd4Rhs p d m l) :
    ∃ s, pfSystem p d = .ok s ∧ PfSolves s (gridVector p.N V) := by
  obtain ⟨s, hs, hlen, -, -, num, hnum, heq⟩ := C48_system p d hN h1 h2 h3
  refine ⟨s, hs, by rw [hlen]; simp [gridVector], fun i hi => ?_⟩
  rw [hlen] at hi
  obtain ⟨⟨m, l⟩, ⟨hm, hl⟩, rfl⟩ := hnum.surjOn (show i ∈ _ from hi)
  dsimp only at hm hl
  by_cases hbd : m = 0 ∨ m = p.N ∨ l = 0 ∨ l = p.N
  · obtain ⟨e1, e2⟩ := (heq m l hm hl).1 hbd
    rw [e1, e2, ← hb m l hm hl hbd, List.map_cons, List.map_nil, List.sum_cons, List.sum_nil,
      gridVector_getD p V (by omega) (by omega) (by omega) (by omega)]
    simp
  · obtain ⟨e1, e2⟩ := (heq m l hm hl).2 hbd
    push Not at hbd
    have c1 : p.getR ((m : ℝ) + 1) = p.getR ((m + 1 : ℕ) : ℝ) := by push_cast; rfl
    have c2 : p.getR ((m : ℝ) - 1) = p.getR ((m - 1 : ℕ) : ℝ) := by rw [Nat.cast_sub (by omega)]; push_cast; rfl
    rw [e2, ← hin m l (by omega) (by omega) (by omega) (by omega),
      ← C49_scheme p d.k m l h1 h2 (h3 m hm) (by push_cast; rw [c2]; exact h3 _ (by omega))
      (by push_cast; rw [c1]; exact h3 _ (by omega)), (e1.map _).sum_eq, List.map_map, (pfStencil_perm.map _).sum_eq]
    refine congrArg List.sum (List.map_congr_left fun x hx => ?_)
    simp only [Finset.mem_toList, Finset.mem_product, Finset.mem_Icc] at hx
    dsimp only [Function.comp_apply]
    rw [gridVector_getD p V (by omega) (by omega) (by omega) (by omega)]

/-- **C48** error branches: `N = 0` is a division by zero in the constructor; a circle of radius zero next to an inner
node is a division by zero while the system is built. -/
theorem C48_errors (a nu R0 R1 : ℝ) : pfInit 0 a nu R0 R1 = .error .zeroDivisionError ∧
    ∀ (p : PolarFD) (d : PfData), 2 ≤ p.N → p.R0 = 0 → pfSystem p d = .error .zeroDivisionError := by
  refine ⟨rfl, fun p d hN h => ?_⟩
  unfold pfSystem
  obtain ⟨n, hn⟩ : ∃ n, p.N - 1 = n + 1 := ⟨p.N - 2, by omega⟩
  have e : ∀ s, pfSetFd4 p d ((1 : ℕ) : ℤ) ((1 : ℕ) : ℤ) s = .error .zeroDivisionError := by
    intro s
    unfold pfSetFd4
    rw [if_pos]
    · rfl
    · refine .inr (.inr (.inr (.inl ?_)))
      unfold PolarFD.getR
      rw [h]; push_cast; ring
  dsimp only
  rw [hn, List.range'_succ, List.foldlM_cons, List.foldlM_cons, e]
  rfl

/-! ## Concrete cases -/

/-- the function `r²` of `(r, θ)` -/
def rsqJet (i j : ℕ) (p : ℝ × ℝ) : ℂ :=
  match i, j with
  | 0, 0 => (p.1 : ℂ) ^ 2
  | 1, 0 => 2 * p.1
  | 2, 0 => 2
  | _, _ => 0

/-- its source `4 + k² r²` -/
def rsqSrc (k : ℝ) (i j : ℕ) (p : ℝ × ℝ) : ℂ := (k : ℂ) ^ 2 * rsqJet i j p + if i = 0 ∧ j = 0 then 4 else 0

theorem rsqJet_jetOn {Ω : Set (ℝ × ℝ)} (hΩ : IsOpen Ω) (n : ℕ) : JetOn Ω n rsqJet := by
  refine ⟨hΩ, fun i j _ p _ => ?_⟩
  have h1 : HasFDerivAt (fun p : ℝ × ℝ => (p.1 : ℂ)) (Complex.ofRealCLM.comp (ContinuousLinearMap.fst ℝ ℝ ℝ)) p :=
    (Complex.ofRealCLM.comp (ContinuousLinearMap.fst ℝ ℝ ℝ)).hasFDerivAt
  rcases j with _ | j
  · rcases i with _ | _ | _ | i
    · have e : rsqJet 0 0 = fun p : ℝ × ℝ => (p.1 : ℂ) * (p.1 : ℂ) := by funext p; simp [rsqJet, pow_two]
      rw [e]
      refine (h1.fun_mul h1).congr_fderiv ?_
      ext
      · simp [grad2, rsqJet]; ring
      · simp [grad2, rsqJet]
    · refine (h1.const_mul 2).congr_fderiv ?_
      ext <;> simp [grad2, rsqJet]
    · refine (hasFDerivAt_const (2 : ℂ) p).congr_fderiv ?_
      ext <;> simp [grad2, rsqJet]
    · refine (hasFDerivAt_const (0 : ℂ) p).congr_fderiv ?_
      ext <;> simp [grad2, rsqJet]
  · have e : ∀ i, rsqJet i (j + 1) = fun _ => 0 := by intro i; funext p; rcases i with _ | _ | _ | i <;> rfl
    rw [e]
    refine (hasFDerivAt_const (0 : ℂ) p).congr_fderiv ?_
    have e' : rsqJet i (j + 1 + 1) p = 0 := by rcases i with _ | _ | _ | i <;> rfl
    ext <;> simp [grad2, e, e']

theorem rsqSrc_jetOn {Ω : Set (ℝ × ℝ)} (hΩ : IsOpen Ω) (k : ℝ) (n : ℕ) : JetOn Ω n (rsqSrc k) := by
  refine ⟨hΩ, fun i j h p hp => ?_⟩
  have h1 := ((rsqJet_jetOn hΩ n).diff i j h p hp).const_mul ((k : ℂ) ^ 2)
  refine (h1.add_const (if i = 0 ∧ j = 0 then 4 else 0)).congr_fderiv ?_
  ext <;> simp [grad2, rsqSrc]

theorem rsq_helmholtz (k : ℝ) : PolarHelmholtz {p | 0 < p.1} k rsqJet (rsqSrc k 0 0) := by
  rintro ⟨r, θ⟩ hr
  have : (r : ℂ) ≠ 0 := by exact_mod_cast (show (0 : ℝ) < r from hr).ne'
  simp only [rsqJet, rsqSrc, and_self, if_true]
  field_simp
  ring

/-- a grid with five circles, radii 1 to 3, and five rays -/
noncomputable def pfEx : PolarFD := ⟨4, 0, 1, 1, 3, 1 / 2, 1⟩

noncomputable def pfDataEx : PfData :=
  { k := 2, phiInit := fun _ => 1, phi0 := fun _ => 9, phi1 := fun r => (r : ℂ) ^ 2, phi2 := fun r => (r : ℂ) ^ 2
    f := fun r th => rsqSrc 2 0 0 (r, th), dFr := fun r th => rsqSrc 2 1 0 (r, th)
    d2Fr := fun r th => rsqSrc 2 2 0 (r, th), d2Fth := fun r th => rsqSrc 2 0 2 (r, th) }

theorem pfEx_getR (m : ℝ) : pfEx.getR m = 1 + m / 2 := by simp [pfEx, PolarFD.getR]; ring

/-- C49: the residual of `r²` at the middle node, with the bounds `M = 25/4` and `K = 1` -/
example : ‖(pfStencil.map fun x => (fd4Coef pfEx 2 2 x.1 x.2 : ℂ) *
      rsqJet 0 0 (pfEx.getR (2 + x.1 : ℤ), pfEx.getTh (2 + x.2 : ℤ))).sum - fd4Rhs pfEx pfDataEx 2 2‖
    ≤ 3 * (25 / 4 * 1 ^ 6 * (1 + 2 ^ 2)) * ((1 / 2) ^ 4 + 1 ^ 4) := by
  have hΩ : IsOpen {p : ℝ × ℝ | 0 < p.1} := isOpen_lt continuous_const continuous_fst
  have h := C49_consistency (rsqJet_jetOn hΩ 6) (rsqSrc_jetOn hΩ 2 2) pfEx pfDataEx (rsq_helmholtz 2)
    (fun q hq => (show (0 : ℝ) < q.1 from hq).ne') (fun _ _ _ => ⟨rfl, rfl, rfl, rfl⟩) (m := 2) (l := 2) (M := 25 / 4) (K := 1)
    (by norm_num [pfEx]) (by norm_num [pfEx])
    (by
      intro s w hs _
      rw [pfEx_getR]
      have := (abs_le.1 (show |s| ≤ 1 / 2 from hs)).1
      show (0 : ℝ) < _
      push_cast
      linarith)
    (by
      intro i j _ s w hs _
      rw [pfEx_getR]
      obtain ⟨h1, h2⟩ := abs_le.1 (show |s| ≤ 1 / 2 from hs)
      have hx : |(1 : ℝ) + ((2 : ℤ) : ℝ) / 2 + s| ≤ 5 / 2 := abs_le.2 (by push_cast; constructor <;> linarith)
      generalize (1 : ℝ) + ((2 : ℤ) : ℝ) / 2 + s = x at hx
      rcases j with _ | j
      · rcases i with _ | _ | _ | i
        · simp only [rsqJet, norm_pow, Complex.norm_real, Real.norm_eq_abs]
          nlinarith [abs_nonneg x]
        · simp only [rsqJet, norm_mul, Complex.norm_real, Real.norm_eq_abs, Complex.norm_ofNat]
          linarith
        · simp only [rsqJet, Complex.norm_ofNat]; norm_num
        · simp only [rsqJet, norm_zero]; norm_num
      · have : rsqJet i (j + 1) (x, pfEx.getTh (2 : ℤ) + w) = 0 := by rcases i with _ | _ | _ | i <;> rfl
        rw [this, norm_zero]; norm_num)
    (by
      intro s hs
      rw [pfEx_getR]
      have := (abs_le.1 (show |s| ≤ 1 / 2 from hs)).1
      push_cast
      exact ⟨by linarith, inv_le_one_of_one_le₀ (by linarith)⟩)
    le_rfl
  exact h

/-- C48: this grid gives a square system of 25 equations -/
example : ∃ s, pfSystem pfEx pfDataEx = .ok s ∧ s.rhs.length = 25 ∧ s.row = 25 := by
  obtain ⟨s, h1, h2, h3, -⟩ := C48_system pfEx pfDataEx (by decide) (by norm_num [pfEx]) (by norm_num [pfEx])
    (fun m _ => by rw [pfEx_getR]; positivity)
  exact ⟨s, h1, h2, h3⟩

/-- C48: the grid of the program, `R0 = 0.1` -/
example : ∃ p, pfInit 16 (π / 4) (4 / 7) (1 / 10) (23 / 10) = .ok p ∧ ∀ d, ∃ s, pfSystem p d = .ok s ∧ s.row = 289 := by
  refine ⟨_, rfl, fun d => ?_⟩
  obtain ⟨s, h1, -, h3, -⟩ := C48_system ⟨16, π / 4, 4 / 7, 1 / 10, 23 / 10, (23 / 10 - 1 / 10) / (16 : ℕ),
      (2 * π - π / 4) / (16 : ℕ)⟩ d (by decide) (by norm_num) (by
        have := pi_pos
        exact ne_of_gt (div_pos (by linarith) (by norm_num)))
    (fun m _ => by unfold PolarFD.getR; positivity)
  exact ⟨s, h1, h3⟩

end Pot
