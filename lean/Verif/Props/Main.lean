import Verif.Model.Main
import Verif.Spec.Main
import Verif.Props.Convergence
import Verif.Props.Problem
import Verif.Props.Rate
import Verif.Props.Resonance
import Verif.Props.ScriptTests

/-! # Property C89: the program `run.py` from its command line to its last line -/

namespace Pot
open Real Spec

/-! ## The grids -/

/-- the sizes for which `get_n_basis` returns (C59) -/
def Window (N : ℤ) : Prop := ∃ i : ℕ, 16 * 2 ^ i ≤ N ∧ N < 17 * 2 ^ i

theorem Window.ge {N : ℤ} (h : Window N) : 16 ≤ N := by
  obtain ⟨i, h1, -⟩ := h
  have : (1 : ℤ) ≤ 2 ^ i := by exact_mod_cast Nat.one_le_two_pow
  omega

theorem Window.mul {N : ℤ} (h : Window N) (j : ℕ) : Window (N * 2 ^ j) := by
  obtain ⟨i, h1, h2⟩ := h
  have hp : (0 : ℤ) < 2 ^ j := by positivity
  refine ⟨i + j, ?_, ?_⟩
  · rw [pow_add, ← mul_assoc]; exact mul_le_mul_of_nonneg_right h1 hp.le
  · rw [pow_add, ← mul_assoc]; exact mul_lt_mul_of_pos_right h2 hp

theorem window_list {fuel : ℕ} {N0 : ℤ} {c : Option ℤ} {Ns : List ℤ} (hw : Window N0) (h : getNList fuel N0 c = some Ns) :
    ∀ N ∈ Ns, Window N := by
  rcases c with _ | c
  · cases h
    intro N hN
    rw [List.mem_singleton] at hN
    rw [hN]; exact hw
  · have h16 := hw.ge
    obtain ⟨h1, -, -⟩ := C62_list (by omega) h
    intro N hN
    obtain ⟨-, i, rfl⟩ := (h1 N).1 hN
    exact hw.mul i

theorem nBasis_mono {β : Type} {d : ℤ → Option β} {fuel fuel' : ℕ} (hf : fuel ≤ fuel') {N : ℤ} {v : β}
    (h : nBasisLoop d fuel N = some v) : nBasisLoop d fuel' N = some v := by
  rw [C59_loop] at h ⊢
  obtain ⟨i, hi, h1, h2⟩ := h
  exact ⟨i, by omega, h1, h2⟩

theorem getNList_mono {fuel fuel' : ℕ} (hf : fuel ≤ fuel') {N : ℤ} {c : Option ℤ} {L : List ℤ}
    (h : getNList fuel N c = some L) : getNList fuel' N c = some L := by
  rcases c with _ | c
  · exact h
  · exact C62_fuel hf h

theorem getNList_ends {N : ℤ} (h : 1 ≤ N) (c : Option ℤ) : ∃ fuel L, getNList fuel N c = some L := by
  rcases c with _ | c
  · exact ⟨0, [N], rfl⟩
  · exact (C62_terminates N c).2 (.inl h)

/-- the lookups of all sizes succeed with enough fuel -/
theorem sizes_end {d : ℤ → Option (ℕ × ℕ)} : ∀ (Ns : List ℤ),
    (∀ N ∈ Ns, ∃ fuel v, getNBasis (some d) defaultNBasis fuel N = some v) →
    ∃ fuel0, ∀ fuel, fuel0 ≤ fuel → ∀ N ∈ Ns, ∃ v, getNBasis (some d) defaultNBasis fuel N = some v
  | [], _ => ⟨0, fun _ _ N hN => by simp at hN⟩
  | N :: Ns, h => by
    obtain ⟨f1, v, h1⟩ := h N (by simp)
    obtain ⟨f2, h2⟩ := sizes_end Ns fun M hM => h M (by simp [hM])
    refine ⟨max f1 f2, fun fuel hf M hM => ?_⟩
    rcases List.mem_cons.1 hM with rfl | hM
    · exact ⟨v, nBasis_mono (by omega) h1⟩
    · exact h2 fuel (by omega) M hM

theorem mapM_some {α β : Type} {f : α → Option β} {g : α → β} : ∀ {l : List α}, (∀ x ∈ l, f x = some (g x)) →
    l.mapM f = some (l.map g)
  | [], _ => rfl
  | x :: l, h => by
    rw [List.mapM_cons, h x (by simp), mapM_some (g := g) fun y hy => h y (by simp [hy])]
    rfl

theorem mapM_none {α β : Type} {f : α → Option β} {x : α} : ∀ {l : List α}, x ∈ l → f x = none → l.mapM f = none
  | [], h, _ => by simp at h
  | y :: l, h, hx => by
    rw [List.mapM_cons]
    rcases List.mem_cons.1 h with rfl | h
    · rw [hx]; rfl
    · rw [mapM_none h hx]
      rcases f y with _ | _ <;> rfl

/-! ## The interior nodes -/

theorem getCoord_eq_cartPt (AD : ℝ) (N : ℕ) (i j : ℤ) : getCoord AD N i j = cartPt AD N i j := rfl

theorem shipped_interior {iter : Iter} (hit : IsIter iter) {b : Brentq} {N order : ℕ} {r : ℝ → ℝ} (T : Tame r) {G : PsGrids}
    (hG : psConstructGrids iter (mkEnv b N probAD probA probR r) order = .ok G) (nd : Node) :
    nd ∈ G.Mplus ↔ nd ∈ Interior probAD probA r N := by
  have hpi := pi_pos
  rw [(psGrids_sets hit hG).1, mem_Mplus hit, mem_square]
  have h2 : 0 ≤ r (2 * π) := by rw [T.at_two_pi]; norm_num
  have := C07_is_interior probAD N probA (by unfold probA; linarith) (by unfold probA; linarith) r h2 nd.1 nd.2
  have e : (mkEnv b N probAD probA probR r).interior nd ↔ getCoord probAD N nd.1 nd.2 ∈ Domain probA r := this
  rw [e]
  unfold Interior
  rw [Set.mem_ofPred_eq, getCoord_eq_cartPt]
  constructor
  · rintro ⟨⟨⟨a1, a2⟩, a3, a4⟩, a5⟩; exact ⟨a1, a2, a3, a4, a5⟩
  · rintro ⟨a1, a2, a3, a4, a5⟩; exact ⟨⟨⟨a1, a2⟩, a3, a4⟩, a5⟩

/-- every grid with at least 16 cells has interior nodes -/
theorem interior_nonempty {r : ℝ → ℝ} (T : Tame r) {N : ℕ} (hN : 16 ≤ N) : (Interior probAD probA r N).Nonempty := by
  have hpi := pi_pos
  obtain ⟨n, rfl⟩ : ∃ n, N = n + 1 := ⟨N - 1, by omega⟩
  have hsc : probAD / (n + 1 : ℕ) * √2 ≤ 0.556 := shipped_scale (n + 1) hN
  have hl := T.lo (5 * π / 4) (by linarith) (by linarith)
  obtain ⟨i, j, h1, h2, h3, h4, h5⟩ := middle_interior (a := probA) (r := r) (AD := probAD) (by unfold probAD; positivity)
    (by unfold probA; linarith) (n := n) (by omega) (hsc.trans (le_trans (by norm_num) hl))
  refine ⟨(i, j), h1, ?_, h3, ?_, h5⟩ <;> · push_cast; omega

/-- a node of a refined grid is interior exactly when it is as a node of the coarse grid -/
theorem interior_refine (AD a : ℝ) (r : ℝ → ℝ) {c q : ℕ} (hc : 0 < c) (nd : ℤ × ℤ) :
    ((c : ℤ) * nd.1, (c : ℤ) * nd.2) ∈ Interior AD a r (c * q) ↔ nd ∈ Interior AD a r q := by
  unfold Interior
  simp only [Set.mem_ofPred_eq]
  rw [cartPt_refine AD hc]
  have h0 : (0 : ℤ) < c := by exact_mod_cast hc
  have k1 : ∀ i : ℤ, 1 ≤ (c : ℤ) * i ↔ 1 ≤ i := fun i => by
    constructor
    · intro h; by_contra hn; nlinarith
    · intro h; nlinarith
  have k2 : ∀ i : ℤ, (c : ℤ) * i < ((c * q : ℕ) : ℤ) ↔ i < q := fun i => by
    push_cast
    exact mul_lt_mul_iff_right₀ h0
  rw [k1, k1, k2, k2]

/-! ## The comparison of three solutions -/

/-- the function on the plane that has the values of an array at the nodes -/
noncomputable def gridFun (AD : ℝ) {n : ℕ} (u : Arr n) : ℝ × ℝ → ℂ :=
  Function.extend (fun nd : ℤ × ℤ => cartPt AD (n + 1) nd.1 nd.2) (fun nd => node u nd.1 nd.2) 0

theorem gridFun_node {AD : ℝ} (hAD : AD ≠ 0) {n : ℕ} (u : Arr n) (i j : ℤ) :
    gridFun AD u (cartPt AD (n + 1) i j) = node u i j := by
  have hinj : Function.Injective fun nd : ℤ × ℤ => cartPt AD (n + 1) nd.1 nd.2 := by
    intro x y h
    obtain ⟨h1, h2⟩ := cartPt_inj hAD (Nat.succ_pos n) h
    exact Prod.ext h1 h2
  exact hinj.extend_apply (fun nd => node u nd.1 nd.2) 0 (i, j)

theorem gridFun_samples {AD : ℝ} (hAD : AD ≠ 0) {n : ℕ} (u : Arr n) : CartSamples AD u (gridFun AD u) := by
  intro i j
  have := gridFun_node hAD u ((i : ℤ) + 1) ((j : ℤ) + 1)
  rw [this]
  unfold node
  rw [dif_pos ⟨by omega, by omega, by omega, by omega⟩]
  congr 1 <;> · apply Fin.ext; simp

/-- **C89** the comparison of three solutions on the grids with `4q`, `2q`, `q` cells: it raises no exception, and prints the
binary logarithm of the quotient of the largest differences at the common interior nodes, or `inf`/`nan` if one of them is zero. -/
theorem C89_rate {iter : Iter} (hit : IsIter iter) {r : ℝ → ℝ} (T : Tame r) {q : ℕ} (hq : 16 ≤ q) {n0 n1 n2 : ℕ}
    (h0 : n0 + 1 = 4 * q) (h1 : n1 + 1 = 2 * q) (h2 : n2 + 1 = q) {M : Finset Node}
    (hM : ∀ nd, nd ∈ M ↔ nd ∈ Interior probAD probA r (4 * q)) (u0 : Arr n0) (u1 : Arr n1) (u2 : Arr n2) :
    ∃ ρ, nanOpt (arrRelConvergence iter M u0 u1 u2) = .ok ρ ∧
      IsPrintedRate (nestedDiff probAD probA r q u1 u2) (nestedDiff probAD probA r (2 * q) u0 u1) ρ := by
  have hpi := pi_pos
  have hAD : probAD ≠ 0 := by unfold probAD; positivity
  have hin : ∀ nd ∈ M, InR n0 nd := by
    intro nd hnd
    obtain ⟨a1, a2, a3, a4, -⟩ := (hM nd).1 hnd
    refine ⟨a1, ?_, a3, ?_⟩ <;> omega
  obtain ⟨d, hd, e1, e2⟩ := C50_array hit hAD h0 h1 h2 hin (gridFun_samples hAD u0) (gridFun_samples hAD u1) (gridFun_samples hAD u2)
  have s1 : diffSet (sharedNodes probAD (4 * q) M q) (gridFun probAD u1) (gridFun probAD u2) = nestedDiff probAD probA r q u1 u2 := by
    ext x
    constructor
    · rintro ⟨P, ⟨nd, hnd, hP, hc⟩, rfl⟩
      rw [hP, isCartNode_iff hAD (by norm_num) (by omega)] at hc
      obtain ⟨⟨i, hi⟩, ⟨j, hj⟩⟩ := hc
      have hmem := (hM nd).1 hnd
      have hnd' : nd = (((4 : ℕ) : ℤ) * i, ((4 : ℕ) : ℤ) * j) := Prod.ext hi hj
      rw [hnd'] at hmem hP
      refine ⟨(i, j), (interior_refine probAD probA r (by norm_num) (i, j)).1 hmem, ?_⟩
      have p2 : P = cartPt probAD (n2 + 1) i j := by rw [hP, h2]; exact cartPt_refine probAD (by norm_num) i j
      have p1 : P = cartPt probAD (n1 + 1) (2 * i) (2 * j) := by
        rw [p2, h2, h1]; exact (cartPt_refine probAD (c := 2) (by norm_num) i j).symm
      conv_lhs => rw [p1, gridFun_node hAD, ← p1, p2, gridFun_node hAD]
    · rintro ⟨nd, hnd, rfl⟩
      have hmem := (interior_refine probAD probA r (c := 4) (q := q) (by norm_num) nd).2 hnd
      refine ⟨cartPt probAD q nd.1 nd.2, ⟨_, (hM _).2 hmem, (cartPt_refine probAD (by norm_num) nd.1 nd.2).symm, nd.1, nd.2, rfl⟩, ?_⟩
      have p1 : cartPt probAD q nd.1 nd.2 = cartPt probAD (n1 + 1) (2 * nd.1) (2 * nd.2) := by
        rw [h1]; exact (cartPt_refine probAD (c := 2) (by norm_num) nd.1 nd.2).symm
      have p2 : cartPt probAD q nd.1 nd.2 = cartPt probAD (n2 + 1) nd.1 nd.2 := by rw [h2]
      conv_rhs => rw [p1, gridFun_node hAD, ← p1, p2, gridFun_node hAD]
  have s2 : diffSet (sharedNodes probAD (4 * q) M (2 * q)) (gridFun probAD u0) (gridFun probAD u1) =
      nestedDiff probAD probA r (2 * q) u0 u1 := by
    have e4 : 4 * q = 2 * (2 * q) := by ring
    rw [e4] at hM h0 ⊢
    ext x
    constructor
    · rintro ⟨P, ⟨nd, hnd, hP, hc⟩, rfl⟩
      rw [hP, isCartNode_iff hAD (by norm_num) (by omega)] at hc
      obtain ⟨⟨i, hi⟩, ⟨j, hj⟩⟩ := hc
      have hmem := (hM nd).1 hnd
      have hnd' : nd = (((2 : ℕ) : ℤ) * i, ((2 : ℕ) : ℤ) * j) := Prod.ext hi hj
      rw [hnd'] at hmem hP
      refine ⟨(i, j), (interior_refine probAD probA r (by norm_num) (i, j)).1 hmem, ?_⟩
      have p2 : P = cartPt probAD (n1 + 1) i j := by rw [hP, h1]; exact cartPt_refine probAD (by norm_num) i j
      have p1 : P = cartPt probAD (n0 + 1) (2 * i) (2 * j) := by
        rw [p2, h1, h0]; exact (cartPt_refine probAD (c := 2) (by norm_num) i j).symm
      conv_lhs => rw [p1, gridFun_node hAD, ← p1, p2, gridFun_node hAD]
    · rintro ⟨nd, hnd, rfl⟩
      have hmem := (interior_refine probAD probA r (c := 2) (q := 2 * q) (by norm_num) nd).2 hnd
      refine ⟨cartPt probAD (2 * q) nd.1 nd.2, ⟨_, (hM _).2 hmem, (cartPt_refine probAD (by norm_num) nd.1 nd.2).symm, nd.1, nd.2, rfl⟩, ?_⟩
      have p1 : cartPt probAD (2 * q) nd.1 nd.2 = cartPt probAD (n0 + 1) (2 * nd.1) (2 * nd.2) := by
        rw [h0]; exact (cartPt_refine probAD (c := 2) (by norm_num) nd.1 nd.2).symm
      have p2 : cartPt probAD (2 * q) nd.1 nd.2 = cartPt probAD (n1 + 1) nd.1 nd.2 := by rw [h1]
      conv_rhs => rw [p1, gridFun_node hAD, ← p1, p2, gridFun_node hAD]
  rw [s1] at e1
  rw [s2] at e2
  have ne1 : nestedDiff probAD probA r q u1 u2 ≠ ∅ := by
    obtain ⟨nd, hnd⟩ := interior_nonempty T hq
    exact Set.nonempty_iff_ne_empty.1 ⟨_, nd, hnd, rfl⟩
  have ne2 : nestedDiff probAD probA r (2 * q) u0 u1 ≠ ∅ := by
    obtain ⟨nd, hnd⟩ := interior_nonempty T (N := 2 * q) (by omega)
    exact Set.nonempty_iff_ne_empty.1 ⟨_, nd, hnd, rfl⟩
  obtain ⟨c1, c2, c3⟩ := C50_rate d _ _ e1 e2
  have hrel : arrRelConvergence iter M u0 u1 u2 = relRate d := by unfold arrRelConvergence; rw [hd, ok_bind]
  rw [hrel]
  by_cases hv : relRate d = .error .nanValue
  · exact ⟨none, by rw [hv]; rfl, c3.1 hv⟩
  · rcases hrr : relRate d with er | x
    · exfalso
      have hne : relRate d ≠ .error .valueError := fun h => (c2.1 h).elim ne1 ne2
      unfold relRate at hrr hne hv
      rcases p1 : pyMax d.1 with er1 | m1
      · have : er1 = .valueError := by
          unfold pyMax at p1
          split at p1 <;> cases p1
          rfl
        rw [p1, this] at hne
        exact hne rfl
      rcases p2 : pyMax d.2 with er2 | m2
      · have : er2 = .valueError := by
          unfold pyMax at p2
          split at p2 <;> cases p2
          rfl
        rw [p1, p2, this] at hne
        exact hne rfl
      rw [p1, p2, ok_bind, ok_bind] at hrr hv
      by_cases hz : m1 = 0 ∨ m2 = 0
      · rw [if_pos hz] at hv; exact hv rfl
      · rw [if_neg hz] at hrr; cases hrr
    · exact ⟨some x, rfl, (c1 x).1 hrr⟩

/-! ## One grid -/

theorem psRun_evalError {n : ℕ} {iter : Iter} {s : PSolver} {ap : Arr n} {fit : Chebfit} {roots : List ℝ} {bc : ℝ → Fin 3 → ℂ}
    {lstsq : Lstsq} {ex : Option (ℝ → ℝ → ℂ)} {res : RunResult n} (h : psRun iter s ap fit roots bc lstsq ex = .ok res) :
    evalError iter s.e s.G ex res.uAct = .ok res.error := by
  unfold psRun at h
  rcases h1 : calcC0 s.eps s.e.a s.e.R fit roots s.bas bc with er | c0
  · rw [h1] at h; cases h
  rw [h1, ok_bind] at h
  rcases h2 : solveVar lstsq iter s ap c0 with er | c1
  · rw [h2] at h; cases h
  rw [h2, ok_bind] at h
  rcases h3 : extendBoundary s (.full c0 c1) with er | ext
  · rw [h3] at h; cases h
  rw [h3, ok_bind] at h
  rcases h4 : regularPart iter s.e s.order s.k s.G ext ap with er | u
  · rw [h4] at h; cases h
  rw [h4, ok_bind] at h
  rcases h5 : evalError iter s.e s.G ex u with er | e
  · rw [h5] at h; cases h
  rw [h5, ok_bind] at h
  cases h
  exact h5

/-- what the program has computed on the grid with `n + 1` cells when it prints the error `e` and keeps the solution `u`: `e` is the
largest deviation of `u` from the expected solution at the interior nodes; `u` satisfies the discrete equation of the given order
with the right-hand side `φ` at the interior nodes; it is the result of a run with the traces of the expected solution as data
and with Neumann coefficients that minimise the defect. -/
def GridOutcome (iter : Iter) (b : Brentq) (fit : Chebfit) (lstsq : Lstsq) (order : ℕ) (k : ℝ) (ex φ : ℝ → ℝ → ℂ) (r : ℝ → ℝ)
    (size : ℕ × ℕ) {n : ℕ} (e : ℝ) (u : Arr n) : Prop :=
  IsGreatest (errSet probAD probA r ex u) e ∧
  (∃ f : Arr (n + 2), (∀ nd ∈ Interior probAD probA r (n + 1), fullNode f nd.1 nd.2 =
      φ (cartPt probAD (n + 1) nd.1 nd.2).1 (cartPt probAD (n + 1) nd.1 nd.2).2) ∧
    ∀ c d : Fin n, ((c : ℤ) + 1, (d : ℤ) + 1) ∈ Interior probAD probA r (n + 1) →
      applyL (pad u) order probAD k c d = applyB f c d) ∧
  ∃ (src : Source) (s : PSolver) (ap : Arr n) (res : RunResult n),
    (∀ x y, src.f x y = φ x y) ∧
    psInit iter (mkEnv b (n + 1) probAD probA probR r) order k (1 / 1000) size.1 size.2 src = .ok s ∧
    initApSolF n iter s = .ok ap ∧
    psRun iter s ap fit (chebRoots 1024) (traces ex probA r) lstsq (some ex) = .ok res ∧ res.uAct = u ∧
    ∃ d, defect n iter s ap res.c0 res.c1 = .ok d ∧ ∀ c1 : List ℂ, c1.length = size.1 + 2 * size.2 →
      ∃ d', defect n iter s ap res.c0 c1 = .ok d' ∧ d ≤ d'

/-- the data passed to `calc_c0` -/
theorem bc_traces (ex : ℝ → ℝ → ℂ) (r : ℝ → ℝ) :
    (fun (x : ℝ) (sid : Fin 3) => pyGet (smoothEvalBc ex r probA x sid)) = traces ex probA r := by
  funext x sid
  obtain ⟨h0, h1, h2, -⟩ := C56_bc ex r probA x
  fin_cases sid
  · show pyGet (smoothEvalBc ex r probA x 0) = _
    rw [h0]; rfl
  · show pyGet (smoothEvalBc ex r probA x 1) = _
    rw [h1]; rfl
  · show pyGet (smoothEvalBc ex r probA x 2) = _
    rw [h2]; rfl

/-- what has been computed on the grid with `n + 1` cells when the error `e` (if there is an expected solution `ex`) and the solution
`u` are returned: `e` is the largest deviation of `u` from `ex` at the interior nodes; `u` satisfies the discrete equation of the
given order with the right-hand side `φ` at the interior nodes; it is the result of a run with the data `bc` on the three segments
and with Neumann coefficients that minimise the defect. -/
def BvpOutcome (iter : Iter) (b : Brentq) (fit : Chebfit) (lstsq : Lstsq) (order : ℕ) (k : ℝ) (ex : Option (ℝ → ℝ → ℂ))
    (φ : ℝ → ℝ → ℂ) (bc : ℝ → Fin 3 → ℂ) (r : ℝ → ℝ) (size : ℕ × ℕ) {n : ℕ} (e : Option ℝ) (u : Arr n) : Prop :=
  (match ex, e with
    | some ex, some e => IsGreatest (errSet probAD probA r ex u) e
    | none, none => True
    | _, _ => False) ∧
  (∃ f : Arr (n + 2), (∀ nd ∈ Interior probAD probA r (n + 1), fullNode f nd.1 nd.2 =
      φ (cartPt probAD (n + 1) nd.1 nd.2).1 (cartPt probAD (n + 1) nd.1 nd.2).2) ∧
    ∀ c d : Fin n, ((c : ℤ) + 1, (d : ℤ) + 1) ∈ Interior probAD probA r (n + 1) →
      applyL (pad u) order probAD k c d = applyB f c d) ∧
  ∃ (src : Source) (s : PSolver) (ap : Arr n) (res : RunResult n),
    (∀ x y, src.f x y = φ x y) ∧
    psInit iter (mkEnv b (n + 1) probAD probA probR r) order k (1 / 1000) size.1 size.2 src = .ok s ∧
    initApSolF n iter s = .ok ap ∧
    psRun iter s ap fit (chebRoots 1024) bc lstsq ex = .ok res ∧ res.uAct = u ∧
    ∃ d, defect n iter s ap res.c0 res.c1 = .ok d ∧ ∀ c1 : List ℂ, c1.length = size.1 + 2 * size.2 →
      ∃ d', defect n iter s ap res.c0 c1 = .ok d' ∧ d ≤ d'

/-- one pass of the loop, given what `run` does -/
theorem bvp_pass {iter : Iter} (hit : IsIter iter) {b : Brentq} {fit : Chebfit} (hfit : IsChebfit fit) {lstsq : Lstsq}
    {n order : ℕ} (hN : 16 ≤ n + 1) {name : String} {r : ℝ → ℝ} (hname : chooseBoundary name = .ok r) {k : ℝ} {src : Source}
    {ex : Option (ℝ → ℝ → ℂ)} {φ : ℝ → ℝ → ℂ} {bcF : (ℝ → ℝ) → ℝ → ℕ → Py ℂ} {bc : ℝ → Fin 3 → ℂ}
    (hbc : (fun (x : ℝ) (sid : Fin 3) => pyGet (bcF r x sid)) = bc) {nB : ℤ → Option (ℕ × ℕ)} {m1 : Option (String → Option ℕ)}
    {size : ℤ → ℕ × ℕ} (hp : 1 ≤ (size (n + 1)).1) (hq : 1 ≤ (size (n + 1)).2) (hφ : ∀ x y, src.f x y = φ x y)
    (H : ∃ s : PSolver, psInit iter (mkEnv b (n + 1) probAD probA probR r) order k (1 / 1000) (size (n + 1)).1 (size (n + 1)).2 src = .ok s ∧
      ∃ f : Arr (n + 2), (∀ nd ∈ s.G.Mplus, fullNode f nd.1 nd.2 =
        src.f (getCoord probAD (n + 1) nd.1 nd.2).1 (getCoord probAD (n + 1) nd.1 nd.2).2) ∧
      ∃ ap, ∃ res : RunResult n, initApSolF n iter s = .ok ap ∧
        psRun iter s ap fit (chebRoots 1024) bc lstsq ex = .ok res ∧
        (∀ c d : Fin n, ((c : ℤ) + 1, (d : ℤ) + 1) ∈ s.G.Mplus → applyL (pad res.uAct) order probAD k c d = applyB f c d) ∧
        ∃ d, defect n iter s ap res.c0 res.c1 = .ok d ∧ ∀ c1 : List ℂ, c1.length = (size (n + 1)).1 + 2 * (size (n + 1)).2 →
          ∃ d', defect n iter s ap res.c0 c1 = .ok d' ∧ d ≤ d') :
    ∃ (m : MainSolver) (e : Option ℝ) (u : Arr n),
      mainBuild iter b ⟨k, some src, ex, some bcF, nB, m1⟩ r order size ((n : ℤ) + 1) = .ok m ∧
      mainSolve iter fit lstsq ⟨k, some src, ex, some bcF, nB, m1⟩ r m = .ok (some ⟨e, ⟨n, u⟩⟩) ∧
      (∀ nd, nd ∈ m.s.G.Mplus ↔ nd ∈ Interior probAD probA r (n + 1)) ∧
      BvpOutcome iter b fit lstsq order k ex φ bc r (size (n + 1)) e u := by
  have hpi := pi_gt_d2
  have T := chooseBoundary_tame hname
  obtain ⟨s, hs, f, hf, ap, res, hap, hrun, heq, hdef⟩ := H
  -- the parts of the solver
  rcases hG : psConstructGrids iter (mkEnv b (n + 1) probAD probA probR r) order with er | G
  · unfold psInit at hs
    rw [hG] at hs
    cases hs
  have hs' := hs
  rw [psInit_ok hG] at hs'
  have hse : s = ⟨mkEnv b (n + 1) probAD probA probR r, order, k, 1 / 1000, setupBasis (size (n + 1)).1 (size (n + 1)).2, G,
      buildCache (mkEnv b (n + 1) probAD probA probR r) (G.allGamma 0), src⟩ := (Except.ok.inj hs').symm
  have hint : ∀ nd, nd ∈ s.G.Mplus ↔ nd ∈ Interior probAD probA r (n + 1) := by
    rw [hse]; exact shipped_interior hit T hG
  obtain ⟨printed, hprint⟩ := C83_run_printing (iter := iter) (s := s) (n := n) (by rw [hse]; norm_num)
    (by rw [hse]; show 0 < probA; unfold probA; linarith)
    (by rw [hse]; show probA + 2 / 10 ^ 5 ≤ 2 * π; unfold probA; norm_num at hpi ⊢; linarith)
    (by rw [hse]; show 1 / 10 ^ 5 ≤ probR; unfold probR; norm_num)
    (by
      rw [hse]
      intro t h1 h2
      have h1' : π / 4 ≤ t := h1
      have := T.lo t (by linarith) (by linarith)
      show 0 < r t
      norm_num at this
      linarith) hp hq (by rw [hse]) ap hfit (chebRoots 1024) bc lstsq ex
  have hM : s.G.Mplus ≠ ∅ := by
    obtain ⟨nd, hnd⟩ := interior_nonempty T hN
    intro h0
    have := (hint nd).2 hnd
    rw [h0] at this
    simp at this
  have her := psRun_evalError hrun
  have hGs : psConstructGrids iter s.e order = .ok s.G := by rw [hse]; exact hG
  have hcoord : ∀ nd, s.e.coord nd = cartPt probAD (n + 1) nd.1 nd.2 := by intro nd; rw [hse]; rfl
  have hnode : ∀ nd : Node, nd ∈ Interior probAD probA r (n + 1) → ∃ c d : Fin n, nd = ((c : ℤ) + 1, (d : ℤ) + 1) := by
    rintro ⟨i, j⟩ ⟨h1, h2, h3, h4, -⟩
    simp only at h1 h2 h3 h4
    push_cast at h2 h4
    refine ⟨⟨(i - 1).toNat, by omega⟩, ⟨(j - 1).toNat, by omega⟩, ?_⟩
    simp only [Prod.mk.injEq]
    omega
  have hval : ∀ c d : Fin n, node res.uAct ((c : ℤ) + 1) ((d : ℤ) + 1) = res.uAct c d := by
    intro c d
    unfold node
    rw [dif_pos ⟨by omega, by omega, by omega, by omega⟩]
    congr 1 <;> · apply Fin.ext; simp
  refine ⟨⟨n, s, ap⟩, res.error, res.uAct, ?_, ?_, hint, ⟨?_, ⟨f, ?_, ?_⟩, src, s, ap, res, hφ, hs, hap, hrun, rfl, hdef⟩⟩
  · show mainBuild iter b _ r order size (Int.ofNat (n + 1)) = _
    unfold mainBuild
    simp only [Option.getD_some, Option.isNone_some, Bool.false_eq_true, false_and, if_false]
    rw [hs, ok_bind, hap]
    rfl
  · unfold mainSolve
    simp only
    rw [hbc, hprint, hrun]
    rfl
  · rcases ex with _ | ex
    · have h0 := (C65_eval_error hit (by rw [hse]; rfl) hGs res.uAct).1
      rw [her] at h0
      rw [Except.ok.inj h0]
      trivial
    · obtain ⟨e, he, hle, a, b', hab, hat⟩ := ((C65_eval_error hit (by rw [hse]; rfl) hGs res.uAct).2 ex).2 hM
      rw [her] at he
      rw [Except.ok.inj he]
      refine ⟨⟨((a : ℤ) + 1, (b' : ℤ) + 1), (hint _).1 hab, ?_⟩, ?_⟩
      · rw [hat, hcoord, hval]
      · rintro x ⟨nd, hnd, rfl⟩
        obtain ⟨c, d, rfl⟩ := hnode nd hnd
        have := hle c d ((hint _).2 hnd)
        rw [hcoord] at this
        rw [hval]
        exact this
  · intro nd hnd
    rw [hf nd ((hint nd).2 hnd), getCoord_eq_cartPt, hφ]
  · intro c d hcd
    exact heq c d ((hint _).2 hcd)

/-- one pass of the loop for a problem with an expected solution, given what `run` does -/
theorem grid_pass {iter : Iter} (hit : IsIter iter) {b : Brentq} {fit : Chebfit} (hfit : IsChebfit fit) {lstsq : Lstsq}
    {n order : ℕ} (hN : 16 ≤ n + 1) {name : String} {r : ℝ → ℝ} (hname : chooseBoundary name = .ok r) {k : ℝ} {src : Source}
    {ex φ : ℝ → ℝ → ℂ} {nB : ℤ → Option (ℕ × ℕ)} {m1 : Option (String → Option ℕ)} {size : ℤ → ℕ × ℕ}
    (hp : 1 ≤ (size (n + 1)).1) (hq : 1 ≤ (size (n + 1)).2) (hφ : ∀ x y, src.f x y = φ x y)
    (H : ∃ s : PSolver, psInit iter (mkEnv b (n + 1) probAD probA probR r) order k (1 / 1000) (size (n + 1)).1 (size (n + 1)).2 src = .ok s ∧
      ∃ f : Arr (n + 2), (∀ nd ∈ s.G.Mplus, fullNode f nd.1 nd.2 =
        src.f (getCoord probAD (n + 1) nd.1 nd.2).1 (getCoord probAD (n + 1) nd.1 nd.2).2) ∧
      ∃ ap, ∃ res : RunResult n, initApSolF n iter s = .ok ap ∧
        psRun iter s ap fit (chebRoots 1024) (traces ex probA r) lstsq (some ex) = .ok res ∧
        (∀ c d : Fin n, ((c : ℤ) + 1, (d : ℤ) + 1) ∈ s.G.Mplus → applyL (pad res.uAct) order probAD k c d = applyB f c d) ∧
        ∃ d, defect n iter s ap res.c0 res.c1 = .ok d ∧ ∀ c1 : List ℂ, c1.length = (size (n + 1)).1 + 2 * (size (n + 1)).2 →
          ∃ d', defect n iter s ap res.c0 c1 = .ok d' ∧ d ≤ d') :
    ∃ (m : MainSolver) (e : ℝ) (u : Arr n),
      mainBuild iter b ⟨k, some src, some ex, some fun r => smoothEvalBc ex r probA, nB, m1⟩ r order size ((n : ℤ) + 1) = .ok m ∧
      mainSolve iter fit lstsq ⟨k, some src, some ex, some fun r => smoothEvalBc ex r probA, nB, m1⟩ r m = .ok (some ⟨some e, ⟨n, u⟩⟩) ∧
      (∀ nd, nd ∈ m.s.G.Mplus ↔ nd ∈ Interior probAD probA r (n + 1)) ∧
      GridOutcome iter b fit lstsq order k ex φ r (size (n + 1)) e u := by
  obtain ⟨m, e, u, k1, k2, k3, k4, k5⟩ := bvp_pass hit hfit hN hname (bcF := fun r => smoothEvalBc ex r probA) (bc_traces ex r)
    (nB := nB) (m1 := m1) (size := size) hp hq hφ H
  rcases e with _ | e
  · exact absurd k4 (by simp)
  · exact ⟨m, e, u, k1, k2, k3, k4, k5⟩

/-! ## The smooth problems -/

/-- the entries of the table of basis sizes are positive -/
theorem smooth_sizes {fuel : ℕ} {N : ℤ} {v : ℕ × ℕ} (h : getNBasis (some smoothNBasis) defaultNBasis fuel N = some v) :
    1 ≤ v.1 ∧ 1 ≤ v.2 := by
  obtain ⟨i, -, hi, -⟩ := (C59_loop smoothNBasis v fuel N).1 h
  unfold smoothNBasis dictOf at hi
  obtain ⟨p, hp, rfl⟩ := Option.map_eq_some_iff.1 hi
  have hmem := List.mem_of_find?_eq_some hp
  rw [List.mem_reverse] at hmem
  have : ∀ p ∈ ([(16, (20, 6)), (32, (33, 8)), (64, (42, 12)), (128, (65, 18)), (256, (80, 30)), (512, (80, 45)),
      (1024, (80, 45))] : List (ℤ × (ℕ × ℕ))), 1 ≤ p.2.1 ∧ 1 ≤ p.2.2 := by decide
  exact this p hmem

/-- the record of a smooth problem -/
theorem smooth_record {name : String} {ex φ : ℝ → ℝ → ℂ} (h : SmoothCase name ex φ) :
    ∃ src, problemTable.lookup name = some ⟨smoothK, some src, some ex, some fun r => smoothEvalBc ex r probA, smoothNBasis, none⟩ ∧
      (∀ x y, src.f x y = φ x y) ∧ ((src.homogeneous = true ∧ name ≠ "smooth-ycos") ∨
        (src.homogeneous = false ∧ SrcDefined src ∧ name = "smooth-ycos")) := by
  have hA : 0 < probAD := by have := pi_pos; unfold probAD; positivity
  cases h with
  | sine => exact ⟨zeroSource, rfl, fun _ _ => rfl, .inl ⟨rfl, by decide⟩⟩
  | e =>
    refine ⟨zeroSource, ?_, fun _ _ => rfl, .inl ⟨rfl, by decide⟩⟩
    have he : (fun x y => (eExpected smoothK x y).1) =
        fun x y : ℝ => Complex.exp (Complex.I * ((27 / 5 * x + 81 / 20 * y : ℝ) : ℂ)) := by
      funext x y
      simp only [eExpected, smoothK]
      norm_num
    show some smoothE = _
    unfold smoothE
    rw [he]
  | ycos =>
    refine ⟨spSource probAD (ycosF smoothK), rfl, fun x y => ?_, .inr ⟨rfl, spSource_defined _ _, rfl⟩⟩
    show pyGet (spF probAD (ycosF smoothK) x y) = _
    rw [(C56_ycos smoothK hA).2.1 x y]
    rfl

/-- no node of the grid with `N` cells lies on the outer curve -/
def OffCurve (r : ℝ → ℝ) (N : ℤ) : Prop :=
  ∀ (i j : ℤ) (t : ℝ), probA / 2 ≤ t → t ≤ 2 * π + probA / 2 → cartPt probAD N.toNat i j ≠ polarPoint (r t) t

/-- one pass of the loop for a smooth problem -/
theorem smooth_pass {iter : Iter} (hit : IsIter iter) {b : Brentq} (hb : BrentqSpec b) {fit : Chebfit} (hfit : IsChebfit fit)
    {lstsq : Lstsq} (hlsq : IsLstsq lstsq) {order : ℕ} (ho : order = 2 ∨ order = 4) {n : ℕ} (hN : 16 ≤ n + 1) {bname : String}
    {r : ℝ → ℝ} (hname : chooseBoundary bname = .ok r) {name : String} {ex φ : ℝ → ℝ → ℂ} {src : Source}
    (hφ : ∀ x y, src.f x y = φ x y) (hsrc : (src.homogeneous = true ∧ name ≠ "smooth-ycos") ∨
        (src.homogeneous = false ∧ SrcDefined src ∧ name = "smooth-ycos")) (hφ0 : name ≠ "smooth-ycos" → ∀ x y, φ x y = 0)
    (hoff : name = "smooth-ycos" → bname = "cubic" → OffCurve r ((n : ℤ) + 1)) {nB : ℤ → Option (ℕ × ℕ)}
    {m1 : Option (String → Option ℕ)} {size : ℤ → ℕ × ℕ} (hp : 1 ≤ (size (n + 1)).1) (hq : 1 ≤ (size (n + 1)).2) :
    ∃ (m : MainSolver) (e : ℝ) (u : Arr n),
      mainBuild iter b ⟨smoothK, some src, some ex, some fun r => smoothEvalBc ex r probA, nB, m1⟩ r order size ((n : ℤ) + 1) = .ok m ∧
      mainSolve iter fit lstsq ⟨smoothK, some src, some ex, some fun r => smoothEvalBc ex r probA, nB, m1⟩ r m = .ok (some ⟨some e, ⟨n, u⟩⟩) ∧
      (∀ nd, nd ∈ m.s.G.Mplus ↔ nd ∈ Interior probAD probA r (n + 1)) ∧
      GridOutcome iter b fit lstsq order smoothK ex φ r (size (n + 1)) e u := by
  have hz := (C78_shipped n ho).1
  refine grid_pass hit hfit hN hname hp hq hφ ?_
  rcases hsrc with ⟨hh, hn⟩ | ⟨hh, hd, hn⟩
  · obtain ⟨G, S⟩ := setup_shipped hit hb hN ho hname hz
    obtain ⟨s, hs, f, hf, ap, res, h1, h2, h3, h4⟩ := C77_shipped hit hb hN ho hname (eps := 1 / 1000) hz hh hp hq hfit hlsq
      (chebRoots 1024) (traces ex probA r) (some ex)
    refine ⟨s, hs, f, fun nd _ => ?_, ap, res, h1, h2, h3, h4⟩
    have hs' := hs
    rw [psInit_ok S.built] at hs'
    have hse := (Except.ok.inj hs').symm
    obtain ⟨f', hf', h0⟩ := setupF_zero hit S (s := s) (by rw [hse]) (by rw [hse]) (by rw [hse]; exact hh)
      (by rw [hse]; intro x y; show src.f x y = 0; rw [hφ, hφ0 hn])
    rw [hf] at hf'
    rw [Except.ok.inj hf', h0, hφ, hφ0 hn]
  · have hoff' : ∀ (i j : ℤ) (t : ℝ), probA / 2 ≤ t → t ≤ 2 * π + probA / 2 →
        getCoord probAD (n + 1) i j ≠ polarPoint (r t) t := by
      intro i j t h1 h2
      by_cases hc : bname = "cubic"
      · have := hoff hn hc i j t h1 h2
        rwa [show ((n : ℤ) + 1).toNat = n + 1 by omega] at this
      · exact C79_off_grid hc hname (n + 1) i j h1 h2
    obtain ⟨s, hs, f, -, hf, -, ap, res, h1, h2, h3, h4⟩ := C79_shipped hit hb hN ho hname (eps := 1 / 1000) hz hd hh hoff' hp hq
      hfit hlsq (chebRoots 1024) (traces ex probA r) (some ex)
    exact ⟨s, hs, f, hf, ap, res, h1, h2, h3, h4⟩

/-- the lines printed before the first grid -/
noncomputable def optionLines (args : RunArgs) (k : ℝ) (m1 : ℕ) (Ns : List ℤ) (size : ℤ → ℕ × ℕ) : List MainEv :=
  [.heading args.problem args.boundary, .order args.order, .k k, .radius 2.3, .angle (π / 4), .bet (bet0 args.boundary),
    .side (2 * π), if args.acheat then .acheat else .m1 m1] ++ Ns.map fun N => .basis N (size N)

theorem printOptions_eq (args : RunArgs) (pr : RunProblem) (Ns : List ℤ) (size : ℤ → ℕ × ℕ) :
    printOptions args pr (Ns.map fun N => (N, size N)) =
      optionLines args pr.k (getM1 none pr.m1Dict args.boundary) Ns size := by
  unfold printOptions optionLines
  have h1 : probR = 2.3 := by unfold probR; norm_num
  rw [h1]
  by_cases h : args.acheat
  · simp [h, probA, probAD, Function.comp_def]
  · simp [h, probA, probAD, Function.comp_def]

/-- the construction depends on the size of the basis for its own grid only -/
theorem mainBuild_congr {iter : Iter} {b : Brentq} {pr : RunProblem} {r : ℝ → ℝ} {order : ℕ} {size size' : ℤ → ℕ × ℕ} {N : ℤ}
    (h : size N = size' N) : mainBuild iter b pr r order size N = mainBuild iter b pr r order size' N := by
  rcases N with (_ | n) | n
  · rfl
  · have h' : size ((n : ℤ) + 1) = size' ((n : ℤ) + 1) := h
    unfold mainBuild
    simp only [h']
  · rfl

/-- `run.py` up to the loop -/
theorem runMain_eq {iter : Iter} {b : Brentq} {fit : Chebfit} {lstsq : Lstsq} {fuel : ℕ} {args : RunArgs} {pr : RunProblem}
    {r : ℝ → ℝ} (hpr : problemTable.lookup args.problem = some pr) (hname : chooseBoundary args.boundary = .ok r) {Ns : List ℤ}
    (hNs : getNList fuel args.N args.c = some Ns)
    (hsz : ∀ N ∈ Ns, ∃ v, getNBasis (some pr.nBasis) defaultNBasis fuel N = some v) {size : ℤ → ℕ × ℕ}
    (hsize : size = fun N => (getNBasis (some pr.nBasis) defaultNBasis fuel N).getD (0, 0)) :
    runMain iter b fit lstsq fuel args =
      some (optionLines args pr.k (getM1 none pr.m1Dict args.boundary) Ns size ++
        (runLoop ⟨mainBuild iter b pr r args.order size, mainSolve iter fit lstsq pr r, mainRel iter⟩
          (args.r || pr.expected.isNone) {} Ns).1.map .run,
        (runLoop ⟨mainBuild iter b pr r args.order size, mainSolve iter fit lstsq pr r, mainRel iter⟩
          (args.r || pr.expected.isNone) {} Ns).2.map fun _ => ()) := by
  have hm : (Ns.mapM fun N => (getNBasis (some pr.nBasis) defaultNBasis fuel N).map fun v => (N, v)) =
      some (Ns.map fun N => (N, size N)) := by
    refine mapM_some fun N hN => ?_
    obtain ⟨v, hv⟩ := hsz N hN
    rw [hsize]
    simp only [hv, Option.map_some, Option.getD_some]
  unfold runMain
  rw [hpr, hname]
  simp only
  rw [hNs]
  simp only [Option.bind_eq_bind, Option.bind_some]
  rw [hm]
  simp only [Option.bind_some]
  rw [← hsize, printOptions_eq]
  rfl

/-- **C89** the smooth problems: for every boundary of the table (`smooth-ycos` on the cubic boundary: if no node lies on the curve),
every hash order, both scheme orders, every starting size for which the basis sizes are found, with and without `-c`, `-r` and
`--acheat`, `run.py` ends without an exception.  It prints the options, the basis sizes and then the report of C63, where the error
of each grid is the largest deviation from the expected solution at the interior nodes, the solution of each grid satisfies the
discrete equation, and each relative rate compares the grids with `4q`, `2q` and `q` cells at their common interior nodes. -/
theorem C89_smooth {iter : Iter} (hit : IsIter iter) {b : Brentq} (hb : BrentqSpec b) {fit : Chebfit} (hfit : IsChebfit fit)
    {lstsq : Lstsq} (hlsq : IsLstsq lstsq) {args : RunArgs} (ho : args.order = 2 ∨ args.order = 4) {r : ℝ → ℝ}
    (hname : chooseBoundary args.boundary = .ok r) {ex φ : ℝ → ℝ → ℂ} (hpr : SmoothCase args.problem ex φ) (hw : Window args.N)
    (hoff : args.problem = "smooth-ycos" → args.boundary = "cubic" → ∀ i : ℕ, OffCurve r (args.N * 2 ^ i)) :
    ∃ (Ns : List ℤ) (size : ℤ → ℕ × ℕ) (e : ℤ → ℝ) (u : ℤ → AnyArr) (rate : ℤ → AnyArr → AnyArr → AnyArr → Option ℝ) (fuel0 : ℕ),
      (∀ fuel, fuel0 ≤ fuel → getNList fuel args.N args.c = some Ns ∧
        (∀ N ∈ Ns, getNBasis (some smoothNBasis) defaultNBasis fuel N = some (size N)) ∧
        runMain iter b fit lstsq fuel args = some (optionLines args (27 / 4) 7 Ns size ++
          (report rate args.r (fun N => some ⟨some (e N), u N⟩) Ns).map .run, .ok ())) ∧
      (∀ N ∈ Ns, (u N).1 + 1 = N ∧ GridOutcome iter b fit lstsq args.order (27 / 4) ex φ r (size N) (e N) (u N).2) ∧
      ∀ q : ℕ, (q : ℤ) ∈ Ns → (2 * q : ℤ) ∈ Ns → (4 * q : ℤ) ∈ Ns →
        IsPrintedRate (nestedDiff probAD probA r q (u (2 * q)).2 (u q).2)
          (nestedDiff probAD probA r (2 * q) (u (4 * q)).2 (u (2 * q)).2) (rate (4 * q) (u (4 * q)) (u (2 * q)) (u q)) := by
  have T := chooseBoundary_tame hname
  have h16 := hw.ge
  obtain ⟨src, hlook, hφ, hsrc⟩ := smooth_record hpr
  have hφ0 : args.problem ≠ "smooth-ycos" → ∀ x y, φ x y = 0 := by
    intro hne x y
    generalize args.problem = nm at hpr hne
    cases hpr with
    | sine => rfl
    | e => rfl
    | ycos => exact absurd rfl hne
  -- the grids and the sizes
  obtain ⟨f1, Ns, hNs1⟩ := getNList_ends (N := args.N) (by omega) args.c
  have hwin := window_list hw hNs1
  obtain ⟨f2, hf2⟩ := sizes_end (d := smoothNBasis) Ns fun N hN => ((C59_shipped N).2.1).2 (hwin N hN)
  set fuel0 := max f1 f2 with hfuel0
  set size : ℤ → ℕ × ℕ := fun N => (getNBasis (some smoothNBasis) defaultNBasis fuel0 N).getD (0, 0) with hsize
  have hsz : ∀ N ∈ Ns, getNBasis (some smoothNBasis) defaultNBasis fuel0 N = some (size N) := by
    intro N hN
    obtain ⟨v, hv⟩ := hf2 fuel0 (by omega) N hN
    rw [hsize]
    simp only [hv, Option.getD_some]
  -- every grid
  set pr : RunProblem := ⟨smoothK, some src, some ex, some fun r => smoothEvalBc ex r probA, smoothNBasis, none⟩ with hprdef
  have hgrid : ∀ N ∈ Ns, ∃ (m : MainSolver) (e : ℝ) (u : AnyArr),
      mainBuild iter b pr r args.order size N = .ok m ∧ mainSolve iter fit lstsq pr r m = .ok (some ⟨some e, u⟩) ∧
      (∀ nd, nd ∈ m.s.G.Mplus ↔ nd ∈ Interior probAD probA r N.toNat) ∧ (u.1 : ℤ) + 1 = N ∧
      GridOutcome iter b fit lstsq args.order smoothK ex φ r (size N) e u.2 := by
    intro N hN
    have hg := (hwin N hN).ge
    obtain ⟨n, rfl⟩ : ∃ n : ℕ, N = (n : ℤ) + 1 := ⟨(N - 1).toNat, by omega⟩
    have hoffN : args.problem = "smooth-ycos" → args.boundary = "cubic" → OffCurve r ((n : ℤ) + 1) := by
      intro h1 h2
      rcases hc : args.c with _ | c
      · rw [hc] at hNs1
        cases hNs1
        have := hoff h1 h2 0
        rw [pow_zero, mul_one] at this
        rw [List.mem_singleton] at hN
        rw [hN]; exact this
      · rw [hc] at hNs1
        obtain ⟨-, i, hi⟩ := ((C62_list (by omega) hNs1).1 _).1 hN
        rw [hi]; exact hoff h1 h2 i
    obtain ⟨hp, hq⟩ := smooth_sizes (hsz _ hN)
    obtain ⟨m, e, u, k1, k2, k3, k4⟩ := smooth_pass hit hb hfit hlsq ho (n := n) (by omega) hname (ex := ex) hφ hsrc hφ0 hoffN
      (nB := smoothNBasis) (m1 := none) (size := size) hp hq
    refine ⟨m, e, ⟨n, u⟩, k1, k2, ?_, rfl, k4⟩
    rw [show ((n : ℤ) + 1).toNat = n + 1 by omega]
    exact k3
  -- a solver object to fill the gaps
  have hne : ∃ m : MainSolver, True := by
    obtain ⟨m, -⟩ := smooth_pass hit hb hfit hlsq (order := 2) (.inl rfl) (n := 15) (by norm_num) (bname := "arc") rfl
      (name := "smooth-sine") (ex := fun _ _ => 0) (φ := fun _ _ => 0) (src := zeroSource) (fun _ _ => rfl)
      (.inl ⟨rfl, by decide⟩) (fun _ _ _ => rfl) (fun h => absurd h (by decide)) (nB := smoothNBasis) (m1 := none)
      (size := fun _ => (1, 1)) le_rfl le_rfl
    exact ⟨m, trivial⟩
  obtain ⟨m0, -⟩ := hne
  have hall : ∀ N : ℤ, ∃ (m : MainSolver) (e : ℝ) (u : AnyArr), N ∈ Ns →
      mainBuild iter b pr r args.order size N = .ok m ∧ mainSolve iter fit lstsq pr r m = .ok (some ⟨some e, u⟩) ∧
      (∀ nd, nd ∈ m.s.G.Mplus ↔ nd ∈ Interior probAD probA r N.toNat) ∧ (u.1 : ℤ) + 1 = N ∧
      GridOutcome iter b fit lstsq args.order smoothK ex φ r (size N) e u.2 := by
    intro N
    by_cases hN : N ∈ Ns
    · obtain ⟨m, e, u, h⟩ := hgrid N hN
      exact ⟨m, e, u, fun _ => h⟩
    · exact ⟨m0, 0, ⟨0, fun _ _ => 0⟩, fun h => absurd h hN⟩
  choose sol e u hsol using hall
  set rate : ℤ → AnyArr → AnyArr → AnyArr → Option ℝ := fun N x y z =>
    match nanOpt (mainRel iter (sol N) x y z) with
    | .ok ρ => ρ
    | .error _ => none with hrate
  -- the comparisons
  have hcomp : ∀ q : ℕ, (q : ℤ) ∈ Ns → (2 * q : ℤ) ∈ Ns → (4 * q : ℤ) ∈ Ns →
      nanOpt (mainRel iter (sol (4 * q)) (u (4 * q)) (u (2 * q)) (u q)) = .ok (rate (4 * q) (u (4 * q)) (u (2 * q)) (u q)) ∧
      IsPrintedRate (nestedDiff probAD probA r q (u (2 * q)).2 (u q).2)
          (nestedDiff probAD probA r (2 * q) (u (4 * q)).2 (u (2 * q)).2) (rate (4 * q) (u (4 * q)) (u (2 * q)) (u q)) := by
    intro q g1 g2 g4
    have hq := (hwin _ g1).ge
    obtain ⟨-, -, k3, k4, -⟩ := hsol _ g4
    obtain ⟨-, -, -, k4', -⟩ := hsol _ g2
    obtain ⟨-, -, -, k4'', -⟩ := hsol _ g1
    rw [show (4 * (q : ℤ)).toNat = 4 * q by omega] at k3
    obtain ⟨ρ, h1, h2⟩ := C89_rate hit T (q := q) (by omega) (n0 := (u (4 * q)).1) (n1 := (u (2 * q)).1) (n2 := (u q).1) (by omega)
      (by omega) (by omega) k3 (u (4 * q)).2 (u (2 * q)).2 (u q).2
    have h1' : nanOpt (mainRel iter (sol (4 * q)) (u (4 * q)) (u (2 * q)) (u q)) = .ok ρ := h1
    have e1 : rate (4 * q) (u (4 * q)) (u (2 * q)) (u q) = ρ := by
      rw [hrate]
      simp only [h1']
    rw [e1]
    exact ⟨h1', h2⟩
  -- the loop
  have hloop := fun (size' : ℤ → ℕ × ℕ) (hs' : ∀ N ∈ Ns, size' N = size N) => C63_report ⟨mainBuild iter b pr r args.order size', mainSolve iter fit lstsq pr r, mainRel iter⟩ args.r Ns
    (sol := sol) (res := fun N => some ⟨some (e N), u N⟩) (rate := rate) (fun N hN => (mainBuild_congr (hs' N hN)).trans (hsol N hN).1) (fun N hN => (hsol N hN).2.1)
    (by
      intro _ i hi r0 r1 r2 rest hr0 hhist
      have hlen : 2 ≤ i := by
        have := congrArg List.length hhist
        have hle := List.length_filterMap_le (fun N => some (⟨some (e N), u N⟩ : SolveResult AnyArr)) (Ns.take i)
        rw [List.length_reverse] at this
        rw [this, List.length_take] at hle
        simp only [List.length_cons] at hle
        omega
      rcases hc : args.c with _ | c
      · rw [hc] at hNs1
        cases hNs1
        simp at hi
        omega
      rw [hc] at hNs1
      obtain ⟨j, rfl⟩ : ∃ j, i = j + 2 := ⟨i - 2, by omega⟩
      obtain ⟨q, hq4, rest', hq⟩ := C63_nested (by omega) hNs1 (fun N => (⟨some (e N), u N⟩ : SolveResult AnyArr)) hi
      rw [hq] at hhist
      obtain ⟨a1, a2⟩ := List.cons.inj hhist
      obtain ⟨a2, -⟩ := List.cons.inj a2
      have hd := (C62_list (by omega) hNs1).2.2
      have gmem : ∀ l, l < Ns.length → Ns.getD l 0 ∈ Ns := by
        intro l hl
        rw [List.getD_eq_getElem _ _ hl]
        exact List.getElem_mem hl
      have g4 : 4 * q ∈ Ns := by rw [← hq4]; exact gmem _ hi
      have d1 := hd (j + 1) hi
      have d2 := hd j (by omega)
      rw [hq4] at d1
      have g2 : 2 * q ∈ Ns := by
        have := gmem (j + 1) (by omega)
        rwa [show Ns.getD (j + 1) 0 = 2 * q by omega] at this
      have g1 : q ∈ Ns := by
        have := gmem j (by omega)
        rwa [show Ns.getD j 0 = q by omega] at this
      have hq16 := (hwin _ g1).ge
      obtain ⟨p, rfl⟩ : ∃ p : ℕ, q = (p : ℤ) := ⟨q.toNat, by omega⟩
      have := (hcomp p g1 g2 g4).1
      rw [hq4] at hr0 ⊢
      cases hr0
      rw [← a1, ← a2]
      exact this)
    (.inl fun N _ r hr => by cases hr; rfl)
  refine ⟨Ns, size, e, u, rate, fuel0, fun fuel hf => ?_, fun N hN => ?_, fun q g1 g2 g4 => (hcomp q g1 g2 g4).2⟩
  · have hNs := getNList_mono (fuel' := fuel) (by omega) hNs1
    have hsz' : ∀ N ∈ Ns, getNBasis (some smoothNBasis) defaultNBasis fuel N = some (size N) := fun N hN =>
      nBasis_mono hf (hsz N hN)
    have hs' : ∀ N ∈ Ns, (getNBasis (some smoothNBasis) defaultNBasis fuel N).getD (0, 0) = size N := fun N hN => by
      rw [hsz' N hN, Option.getD_some]
    refine ⟨hNs, hsz', ?_⟩
    obtain ⟨⟨s', hfin⟩, hrep⟩ := hloop _ hs'
    rw [runMain_eq (pr := pr) hlook hname hNs (fun N hN => ⟨_, hsz' N hN⟩) rfl]
    have hr : (args.r || pr.expected.isNone) = args.r := by rw [hprdef]; simp
    rw [hr]
    show some (_ ++ (runLoop ⟨mainBuild iter b pr r args.order fun N => (getNBasis (some smoothNBasis) defaultNBasis fuel N).getD (0, 0),
      mainSolve iter fit lstsq pr r, mainRel iter⟩ args.r {} Ns).1.map MainEv.run, _) = _
    rw [hrep]
    have hopt : optionLines args pr.k (getM1 none pr.m1Dict args.boundary) Ns
        (fun N => (getNBasis (some smoothNBasis) defaultNBasis fuel N).getD (0, 0)) = optionLines args (27 / 4) 7 Ns size := by
      unfold optionLines
      rw [List.map_congr_left fun N hN => by
        show MainEv.basis N ((getNBasis (some smoothNBasis) defaultNBasis fuel N).getD (0, 0)) = MainEv.basis N (size N)
        rw [hs' N hN]]
      rfl
    have hfin' : ((runLoop ⟨mainBuild iter b pr r args.order fun N => (getNBasis (some smoothNBasis) defaultNBasis fuel N).getD (0, 0),
      mainSolve iter fit lstsq pr r, mainRel iter⟩ args.r {} Ns).2.map fun _ => ()) = Except.ok () := by rw [hfin]; rfl
    exact congrArg some (Prod.ext (congrArg (· ++ _) hopt) hfin')
  · obtain ⟨-, -, -, k4, k5⟩ := hsol N hN
    exact ⟨k4, k5⟩

/-! ## The other outcomes -/

/-- the names of the boundaries -/
theorem chooseBoundary_names {name : String} {r : ℝ → ℝ} (h : chooseBoundary name = .ok r) :
    name = "arc" ∨ name = "outer-sine" ∨ name = "inner-sine" ∨ name = "sine7" ∨ name = "cubic" := by
  unfold chooseBoundary at h
  split at h
  · next r' hr' =>
    obtain ⟨l1, l2, hl, -⟩ := List.lookup_eq_some_iff.1 hr'
    have hm : (name, r') ∈ boundaryTable probR probA := by rw [hl]; simp
    simp only [boundaryTable, List.mem_cons, Prod.mk.injEq, List.not_mem_nil, or_false] at hm
    rcases hm with ⟨h, -⟩ | ⟨h, -⟩ | ⟨h, -⟩ | ⟨h, -⟩ | ⟨h, -⟩ <;> simp [h]
  · cases h

/-- **C89** the three problems that are made for `runz.py`: for every boundary, `run.py` prints the options and the basis sizes and
ends with a RecursionError when it constructs the solver of the first grid. -/
theorem C89_z {iter : Iter} (hit : IsIter iter) {b : Brentq} (hb : BrentqSpec b) (fit : Chebfit) (lstsq : Lstsq) {args : RunArgs}
    (ho : args.order = 2 ∨ args.order = 4) {r : ℝ → ℝ} (hname : chooseBoundary args.boundary = .ok r) {k : ℝ}
    (hpr : (args.problem = "iz-bessel" ∨ args.problem = "ihz-bessel-line") ∧ k = 27 / 4 ∨
      args.problem = "ihz-bessel-quadratic" ∧ k = 43 / 4) (hw : Window args.N) (hc : ∀ c, args.c = some c → args.N ≤ c) :
    ∃ (Ns : List ℤ) (size : ℤ → ℕ × ℕ) (fuel0 : ℕ), args.N ∈ Ns ∧ ∀ fuel, fuel0 ≤ fuel → getNList fuel args.N args.c = some Ns ∧
      (∀ N ∈ Ns, getNBasis (some singNBasis) defaultNBasis fuel N = some (size N)) ∧
      runMain iter b fit lstsq fuel args =
        some (optionLines args k (if args.boundary = "arc" then 7 else 200) Ns size, .error .recursionError) := by
  have T := chooseBoundary_tame hname
  have h16 := hw.ge
  have hlook : problemTable.lookup args.problem = some (zProblem k) := by
    rcases hpr with ⟨h | h, rfl⟩ | ⟨h, rfl⟩ <;> rw [h] <;> rfl
  have hz : ∀ n, NoZeroEig n args.order probAD k := by
    intro n
    rcases hpr with ⟨-, rfl⟩ | ⟨-, rfl⟩
    · exact (C78_shipped n ho).2.1
    · exact (C78_shipped n ho).2.2.1
  obtain ⟨f1, Ns, hNs1⟩ := getNList_ends (N := args.N) (by omega) args.c
  have hwin := window_list hw hNs1
  have hmem : args.N ∈ Ns := by
    rcases hc' : args.c with _ | c
    · rw [hc'] at hNs1; cases hNs1; simp
    · rw [hc'] at hNs1
      exact ((C62_list (by omega) hNs1).1 _).2 ⟨hc c hc', 0, by simp⟩
  obtain ⟨f2, hf2⟩ := sizes_end (d := singNBasis) Ns fun N hN => ((C59_shipped N).2.2).2 (hwin N hN)
  set fuel0 := max f1 f2 with hfuel0
  set size : ℤ → ℕ × ℕ := fun N => (getNBasis (some singNBasis) defaultNBasis fuel0 N).getD (0, 0) with hsize
  have hsz : ∀ N ∈ Ns, getNBasis (some singNBasis) defaultNBasis fuel0 N = some (size N) := by
    intro N hN
    obtain ⟨v, hv⟩ := hf2 fuel0 (by omega) N hN
    rw [hsize]
    simp only [hv, Option.getD_some]
  refine ⟨Ns, size, fuel0, hmem, fun fuel hf => ?_⟩
  have hNs := getNList_mono (fuel' := fuel) (by omega) hNs1
  have hsz' : ∀ N ∈ Ns, getNBasis (some singNBasis) defaultNBasis fuel N = some (size N) := fun N hN =>
    nBasis_mono hf (hsz N hN)
  refine ⟨hNs, hsz', ?_⟩
  have hbuild : ∀ (sz : ℤ → ℕ × ℕ), ∀ N ∈ Ns, mainBuild iter b (zProblem k) r args.order sz N = .error .recursionError := by
    intro sz N hN
    have hg := (hwin N hN).ge
    obtain ⟨n, rfl⟩ : ∃ n : ℕ, N = (n : ℤ) + 1 := ⟨(N - 1).toNat, by omega⟩
    obtain ⟨G, S⟩ := setup_shipped hit hb (n := n) (by omega) ho hname (hz n)
    have hne : iter 6 G.Mplus ≠ [] := by
      obtain ⟨nd, hnd⟩ := interior_nonempty T (N := n + 1) (by omega)
      have h1 := (shipped_interior hit T S.built nd).2 hnd
      exact List.ne_nil_of_mem (((hit 6 G.Mplus).2 nd).2 h1)
    show mainBuild iter b _ r args.order sz (Int.ofNat (n + 1)) = _
    unfold mainBuild
    simp only
    rw [psInit_ok S.built, ok_bind, if_pos ⟨rfl, hne⟩]
    rfl
  have hloop : ∀ (sz : ℤ → ℕ × ℕ) (d : Bool), runLoop ⟨mainBuild iter b (zProblem k) r args.order sz, mainSolve iter fit lstsq (zProblem k) r,
      mainRel iter⟩ d {} Ns = ([], .error .recursionError) := by
    intro sz d
    have hB := hbuild sz
    clear hsz' hNs hsz hf2 hwin hNs1 hbuild hfuel0 hsize
    rcases Ns with _ | ⟨N, Ns⟩
    · simp at hmem
    · rw [runLoop, runStep]
      simp only [hB N (by simp)]
  rw [runMain_eq hlook hname hNs (fun N hN => ⟨_, hsz' N hN⟩) rfl, hloop]
  have hm1 : getM1 none (zProblem k).m1Dict args.boundary = if args.boundary = "arc" then 7 else 200 := by
    have hcases := chooseBoundary_names hname
    rcases hcases with h | h | h | h | h <;> rw [h] <;> rfl
  have hopt : optionLines args (zProblem k).k (getM1 none (zProblem k).m1Dict args.boundary) Ns
      (fun N => (getNBasis (some (zProblem k).nBasis) defaultNBasis fuel N).getD (0, 0)) =
        optionLines args k (if args.boundary = "arc" then 7 else 200) Ns size := by
    rw [hm1]
    unfold optionLines
    rw [List.map_congr_left fun N hN => by
      show MainEv.basis N ((getNBasis (some singNBasis) defaultNBasis fuel N).getD (0, 0)) = MainEv.basis N (size N)
      rw [hsz' N hN, Option.getD_some]]
    rfl
  rw [hopt]
  simp only [List.map_nil, List.append_nil]
  rfl

/-- **C89** for every other starting size, unless the list of grids is empty, `run.py` never ends: `get_n_basis` does not find a
size, or (`N` at most zero) the list of grids never ends. -/
theorem C89_endless (iter : Iter) (b : Brentq) (fit : Chebfit) (lstsq : Lstsq) (fuel : ℕ) {args : RunArgs} {pr : RunProblem}
    (hpr : (args.problem, pr) ∈ problemTable) {r : ℝ → ℝ} (hname : chooseBoundary args.boundary = .ok r) (hw : ¬ Window args.N)
    (hc : ∀ c, args.c = some c → args.N ≤ c) : runMain iter b fit lstsq fuel args = none := by
  obtain ⟨hlook, hd⟩ : problemTable.lookup args.problem = some pr ∧ (pr.nBasis = smoothNBasis ∨ pr.nBasis = singNBasis) := by
    simp only [problemTable, List.mem_cons, Prod.mk.injEq, List.not_mem_nil, or_false] at hpr
    rcases hpr with ⟨h, rfl⟩ | ⟨h, rfl⟩ | ⟨h, rfl⟩ | ⟨h, rfl⟩ | ⟨h, rfl⟩ | ⟨h, rfl⟩ <;> rw [h]
    exacts [⟨rfl, .inl rfl⟩, ⟨rfl, .inl rfl⟩, ⟨rfl, .inl rfl⟩, ⟨rfl, .inr rfl⟩, ⟨rfl, .inr rfl⟩, ⟨rfl, .inr rfl⟩]
  have hnone : getNBasis (some pr.nBasis) defaultNBasis fuel args.N = none := by
    by_contra hne
    obtain ⟨v, hv⟩ := Option.ne_none_iff_exists'.1 hne
    obtain ⟨-, h2, h3⟩ := C59_shipped args.N
    rcases hd with h | h <;> rw [h] at hv
    exacts [hw (h2.1 ⟨fuel, v, hv⟩), hw (h3.1 ⟨fuel, v, hv⟩)]
  unfold runMain
  rw [hlook, hname]
  simp only
  rcases hNs : getNList fuel args.N args.c with _ | Ns
  · rfl
  · have hmem : args.N ∈ Ns := by
      rcases hc' : args.c with _ | c
      · rw [hc'] at hNs; cases hNs; simp
      · rw [hc'] at hNs
        rcases (C62_terminates args.N c).1 ⟨fuel, Ns, hNs⟩ with h1 | h1
        · exact ((C62_list h1 hNs).1 _).2 ⟨hc c hc', 0, by simp⟩
        · exact absurd (hc c hc') (by omega)
    have hm : (Ns.mapM fun N => (getNBasis (some pr.nBasis) defaultNBasis fuel N).map fun v => (N, v)) = none :=
      mapM_none (x := args.N) hmem (by rw [hnone]; rfl)
    simp only [Option.bind_eq_bind, Option.bind_some]
    rw [hm]
    rfl

/-- **C89** with a largest size below the starting size there are no grids: only the options are printed. -/
theorem C89_empty (iter : Iter) (b : Brentq) (fit : Chebfit) (lstsq : Lstsq) (fuel : ℕ) {args : RunArgs} {pr : RunProblem}
    (hpr : problemTable.lookup args.problem = some pr) {r : ℝ → ℝ} (hname : chooseBoundary args.boundary = .ok r) {c : ℤ}
    (hc : args.c = some c) (hlt : c < args.N) (size : ℤ → ℕ × ℕ) : runMain iter b fit lstsq (fuel + 1) args =
      some (optionLines args pr.k (getM1 none pr.m1Dict args.boundary) [] size, .ok ()) := by
  have hNs : getNList (fuel + 1) args.N args.c = some [] := by rw [hc]; exact C62_empty fuel hlt
  rw [runMain_eq hpr hname hNs (fun N hN => by simp at hN) rfl]
  simp only [runLoop, List.map_nil, List.append_nil, optionLines]
  rfl

/-- **C89** a name that is not in the tables -/
theorem C89_unknown (iter : Iter) (b : Brentq) (fit : Chebfit) (lstsq : Lstsq) (fuel : ℕ) (args : RunArgs) :
    (problemTable.lookup args.problem = none → runMain iter b fit lstsq fuel args = some ([], .error .keyError)) ∧
    ∀ pr e, problemTable.lookup args.problem = some pr → chooseBoundary args.boundary = .error e →
      runMain iter b fit lstsq fuel args = some ([], .error e) := by
  refine ⟨fun h => ?_, fun pr e h1 h2 => ?_⟩
  · unfold runMain; rw [h]
  · unfold runMain; rw [h1, h2]

/-- **C89** the attribute `M` the constructor sets: 3 modes for the second-order scheme, 7 for the fourth-order one, none otherwise -/
theorem C89_modes (order m : ℕ) : getM order = some m ↔ order = 2 ∧ m = 3 ∨ order = 4 ∧ m = 7 := by
  unfold getM
  split_ifs with h1 h2
  · simp only [Option.some.injEq]; omega
  · simp only [Option.some.injEq]; omega
  · simp only [reduceCtorEq, false_iff]; omega

/-! ## Concrete cases -/

/-- `run.py smooth-sine cubic -N 16 -c 64 -r`: three grids; the errors, two rates and one comparison are printed. -/
example : ∃ (b : Brentq) (fit : Chebfit) (lstsq : Lstsq) (fuel : ℕ) (e0 e1 e2 : ℝ) (rel : Option ℝ),
    runMain (fun _ s => s.toList) b fit lstsq fuel { problem := "smooth-sine", boundary := "cubic", c := some 64, r := true } = some (
      [.heading "smooth-sine" "cubic", .order 4, .k (27 / 4), .radius 2.3, .angle (π / 4), .bet (bet0 "cubic"), .side (2 * π), .m1 7,
        .basis 16 (20, 6), .basis 32 (33, 8), .basis 64 (42, 12),
        .run (.grid 16), .run (.error e0), .run (.grid 32), .run (.error e1), .run (.conv (logQuot e0 e1)), .run (.grid 64), .run (.error e2),
        .run (.conv (logQuot e1 e2)), .run (.rel rel)], .ok ()) := by
  obtain ⟨b, hb⟩ := exists_brentq
  obtain ⟨fit, hfit⟩ := exists_chebfit
  obtain ⟨lstsq, hlsq⟩ := exists_isLstsq
  obtain ⟨Ns, size, e, u, rate, fuel0, h, -, -⟩ := C89_smooth isIter_toList hb hfit hlsq
    (args := { problem := "smooth-sine", boundary := "cubic", c := some 64, r := true }) (.inr rfl) rfl .sine ⟨0, by norm_num, by norm_num⟩
    (fun h => absurd h (by decide))
  obtain ⟨hNs, hsz, hrun⟩ := h (fuel0 + 4) (by omega)
  have hNs' : Ns = [16, 32, 64] := by
    have h4 : getNList 4 16 (some 64) = some [16, 32, 64] := by decide
    have := getNList_mono (fuel' := fuel0 + 4) (by omega) h4
    exact Option.some.inj (hNs.symm.trans this)
  subst hNs'
  have hs : ∀ N ∈ [(16 : ℤ), 32, 64], ∀ v, smoothNBasis N = some v → size N = v := by
    intro N hN v hv
    have h1 : nBasisLoop smoothNBasis (fuel0 + 4) N = some v := by
      rw [C59_loop]
      exact ⟨0, by omega, by simpa using hv, fun j hj => by omega⟩
    have h2 : nBasisLoop smoothNBasis (fuel0 + 4) N = some (size N) := hsz N hN
    exact Option.some.inj (h2.symm.trans h1)
  have s0 := hs 16 (by simp) (20, 6) (by decide)
  have s1 := hs 32 (by simp) (33, 8) (by decide)
  have s2 := hs 64 (by simp) (42, 12) (by decide)
  refine ⟨b, fit, lstsq, fuel0 + 4, e 16, e 32, e 64, rate 64 (u 64) (u 32) (u 16), ?_⟩
  rw [hrun]
  unfold optionLines
  simp only [List.map_cons, List.map_nil, s0, s1, s2]
  rfl

/-- `run.py ihz-bessel-quadratic arc`: the options, the size (25, 5) for 16 cells, and a RecursionError -/
example : ∃ (b : Brentq) (fuel : ℕ), runMain (fun _ s => s.toList) b (fun _ _ _ => []) (fun _ _ => []) fuel
    { problem := "ihz-bessel-quadratic", boundary := "arc" } = some (
      [.heading "ihz-bessel-quadratic" "arc", .order 4, .k (43 / 4), .radius 2.3, .angle (π / 4), .bet 0, .side (2 * π), .m1 7,
        .basis 16 (25, 5)], .error .recursionError) := by
  obtain ⟨b, hb⟩ := exists_brentq
  obtain ⟨Ns, size, fuel0, hN, h⟩ := C89_z isIter_toList hb (fun _ _ _ => []) (fun _ _ => [])
    (args := { problem := "ihz-bessel-quadratic", boundary := "arc" }) (.inr rfl) rfl (.inr ⟨rfl, rfl⟩) ⟨0, by norm_num, by norm_num⟩
    (fun c h => by cases h)
  obtain ⟨hNs, hsz, hrun⟩ := h (fuel0 + 1) (by omega)
  cases hNs
  have h1 : nBasisLoop singNBasis (fuel0 + 1) 16 = some (25, 5) := by
    rw [C59_loop]
    exact ⟨0, by omega, by decide, fun j hj => by omega⟩
  have s0 : size 16 = (25, 5) := Option.some.inj ((hsz 16 (by simp)).symm.trans h1)
  refine ⟨b, fuel0 + 1, ?_⟩
  rw [hrun]
  unfold optionLines
  simp only [List.map_cons, List.map_nil, s0]
  rfl

/-- `run.py smooth-sine arc -N 24` does not end, and `-N 64 -c 32` prints no grid. -/
example (iter : Iter) (b : Brentq) (fit : Chebfit) (lstsq : Lstsq) (fuel : ℕ) :
    runMain iter b fit lstsq fuel { problem := "smooth-sine", boundary := "arc", N := 24 } = none ∧
    ∃ out, runMain iter b fit lstsq (fuel + 1) { problem := "smooth-sine", boundary := "arc", N := 64, c := some 32 } =
      some (out, .ok ()) ∧ out.length = 8 := by
  refine ⟨C89_endless iter b fit lstsq fuel (pr := smoothSine) (by simp [problemTable]) rfl ?_ (fun c h => by cases h), ?_⟩
  · rintro ⟨i, h1, h2⟩
    simp only at h1 h2
    have hp : (1 : ℤ) ≤ 2 ^ i := by exact_mod_cast Nat.one_le_two_pow
    rcases Nat.lt_or_ge i 1 with h | h
    · obtain rfl : i = 0 := by omega
      norm_num at h2
    · have : (2 : ℤ) ^ 1 ≤ 2 ^ i := by gcongr; norm_num
      omega
  · exact ⟨_, C89_empty iter b fit lstsq fuel (pr := smoothSine) rfl rfl rfl (by norm_num) (fun _ => (0, 0)), rfl⟩

/-- three equal solutions: the printed rate is no number -/
example {iter : Iter} (hit : IsIter iter) : ∃ (M : Finset Node) (r : ℝ → ℝ), chooseBoundary "arc" = .ok r ∧
    nanOpt (arrRelConvergence (n0 := 63) (n1 := 31) (n2 := 15) iter M (fun _ _ => 0) (fun _ _ => 0) (fun _ _ => 0)) = .ok none := by
  classical
  have T := chooseBoundary_tame (name := "arc") rfl
  have hfin : (Interior probAD probA (arcR probR) (4 * 16)).Finite :=
    (Set.finite_Icc ((1 : ℤ), (1 : ℤ)) (64, 64)).subset fun nd h => by
      obtain ⟨h1, h2, h3, h4, -⟩ := h
      norm_num at h2 h4
      exact ⟨⟨h1, h3⟩, ⟨by simp only; omega, by simp only; omega⟩⟩
  obtain ⟨ρ, h1, h2⟩ := C89_rate hit T (q := 16) le_rfl (n0 := 63) (n1 := 31) (n2 := 15) rfl rfl rfl (M := hfin.toFinset)
    (fun nd => hfin.mem_toFinset) (fun _ _ => 0) (fun _ _ => 0) (fun _ _ => 0)
  refine ⟨hfin.toFinset, _, rfl, ?_⟩
  rcases ρ with _ | x
  · exact h1
  · exfalso
    obtain ⟨M12, M01, hM, -, hpos, -⟩ := h2
    obtain ⟨nd, -, hx⟩ := hM.1
    have : M12 = 0 := by
      rw [hx]
      unfold node
      split <;> split <;> simp
    exact hpos this

end Pot
