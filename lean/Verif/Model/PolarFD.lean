import Verif.Model.Multivalue
import Verif.Model.SolverCoord
import Verif.Model.Potential

/-!
# Model of `ps/polarfd.py`

Real numbers for floats.  Dividing by a Python float that is zero raises ZeroDivisionError.  The three lists `data`,
`row_ind`, `col_ind` are always appended to together and are one list of triples.  `my_print` prints nothing.
-/

namespace Pot
open Real

/-- ps/polarfd.py:7-16, the attributes of a `PolarFD` object -/
structure PolarFD where
  N : ℕ
  a : ℝ
  nu : ℝ
  R0 : ℝ
  R1 : ℝ
  hr : ℝ
  hth : ℝ

/-- ps/polarfd.py:9-16, 32-35 `__init__`, `calc_N_var` -/
noncomputable def pfInit (N : ℕ) (a nu R0 R1 : ℝ) : Py PolarFD :=
  if N = 0 then throw .zeroDivisionError
  else pure { N := N, a := a, nu := nu, R0 := R0, R1 := R1, hr := (R1 - R0) / N, hth := (2 * π - a) / N }

/-- ps/polarfd.py:23-24 `get_r` (called with integers and half-integers) -/
noncomputable def PolarFD.getR (p : PolarFD) (m : ℝ) : ℝ := p.R0 + m * p.hr

/-- ps/polarfd.py:26-27 `get_th` -/
noncomputable def PolarFD.getTh (p : PolarFD) (l : ℝ) : ℝ := p.a + l * p.hth

/-- ps/polarfd.py:29-30 `get_index` -/
def PolarFD.getIndex (p : PolarFD) (m l : ℤ) : ℤ := m * (p.N + 1) + l

/-- the functions handed to `solve` (ps/polarfd.py:198-213) -/
structure PfData where
  k : ℝ
  phiInit : ℝ → ℂ
  phi0 : ℝ → ℂ
  phi1 : ℝ → ℂ
  phi2 : ℝ → ℂ
  f : ℝ → ℝ → ℂ
  dFr : ℝ → ℝ → ℂ
  d2Fr : ℝ → ℝ → ℂ
  d2Fth : ℝ → ℝ → ℂ

/-- ps/polarfd.py:37-44: the variables of the system being built; an entry is (data, row index, column index) -/
structure PfSys where
  rhs : List ℂ
  row : ℕ
  entries : List (ℝ × ℕ × ℤ)

/-- ps/polarfd.py:37-44 `new_system` -/
def pfNew : PfSys := ⟨[], 0, []⟩

/-- one Dirichlet equation, e.g. ps/polarfd.py:55-60 -/
def pfDirichlet (s : PfSys) (i : ℤ) (v : ℂ) : PfSys :=
  { rhs := s.rhs ++ [v], row := s.row + 1, entries := s.entries ++ [(1, s.row, i)] }

/-- ps/polarfd.py:46-60 `set_bc_origin` -/
noncomputable def pfBcOrigin (p : PolarFD) (d : PfData) (s : PfSys) : PfSys :=
  (List.range' 1 (p.N - 1)).foldl (init := s) fun s (l : ℕ) =>
    pfDirichlet s (p.getIndex 0 l) (d.phiInit (p.getTh l))

/-- ps/polarfd.py:62-88 `set_bc_wedge` -/
noncomputable def pfBcWedge (p : PolarFD) (d : PfData) (s : PfSys) : PfSys :=
  (List.range (p.N + 1)).foldl (init := s) fun s (m : ℕ) =>
    let r := p.getR m
    let s := pfDirichlet s (p.getIndex m 0) (d.phi2 r)
    pfDirichlet s (p.getIndex m p.N) (d.phi1 r)

/-- ps/polarfd.py:90-102 `set_bc_arc` -/
noncomputable def pfBcArc (p : PolarFD) (d : PfData) (s : PfSys) : PfSys :=
  (List.range' 1 (p.N - 1)).foldl (init := s) fun s (l : ℕ) =>
    pfDirichlet s (p.getIndex p.N l) (d.phi0 (p.getTh l))

/-- ps/polarfd.py:122-170, the array `local`: its entry at the index pair `(dm, dl)`, each of `-1, 0, 1` (an index `-1`
is the last of three, and is written and read as `-1`) -/
noncomputable def fd4Coef (p : PolarFD) (k : ℝ) (m : ℤ) (dm dl : ℤ) : ℝ :=
  let r_2 := p.getR (m - 1)
  let r_1 := p.getR (m - 1 / 2)
  let r := p.getR m
  let r1 := p.getR (m + 1 / 2)
  let r2 := p.getR (m + 1)
  let hr := p.hr
  let hth := p.hth
  if dm = -1 ∧ dl = -1 then
    -hr / (24 * hth ^ 2 * r * r_2 ^ 2) + 1 / (12 * hth ^ 2 * r_2 ^ 2) + r_1 / (12 * hr ^ 2 * r)
  else if dm = 0 ∧ dl = -1 then
    hr ^ 2 / (12 * hth ^ 2 * r ^ 4) + k ^ 2 / 12 + 5 / (6 * hth ^ 2 * r ^ 2) - r1 / (12 * hr ^ 2 * r)
      - r_1 / (12 * hr ^ 2 * r)
  else if dm = 1 ∧ dl = -1 then
    hr / (24 * hth ^ 2 * r * r2 ^ 2) + 1 / (12 * hth ^ 2 * r2 ^ 2) + r1 / (12 * hr ^ 2 * r)
  else if dm = -1 ∧ dl = 0 then
    -hr * k ^ 2 / (24 * r) - hr / (12 * r ^ 3) + hr / (12 * hth ^ 2 * r * r_2 ^ 2) + k ^ 2 / 12
      - 1 / (6 * hth ^ 2 * r_2 ^ 2) + 5 * r_1 / (6 * hr ^ 2 * r)
  else if dm = 0 ∧ dl = 0 then
    hr ^ 2 * k ^ 2 / (12 * r ^ 2) - hr ^ 2 / (6 * hth ^ 2 * r ^ 4) + 2 * k ^ 2 / 3 - 5 / (3 * hth ^ 2 * r ^ 2)
      - 5 * r1 / (6 * hr ^ 2 * r) - 5 * r_1 / (6 * hr ^ 2 * r)
  else if dm = 1 ∧ dl = 0 then
    hr * k ^ 2 / (24 * r) + hr / (12 * r ^ 3) - hr / (12 * hth ^ 2 * r * r2 ^ 2) + k ^ 2 / 12
      - 1 / (6 * hth ^ 2 * r2 ^ 2) + 5 * r1 / (6 * hr ^ 2 * r)
  else if dm = -1 ∧ dl = 1 then
    -hr / (24 * hth ^ 2 * r * r_2 ^ 2) + 1 / (12 * hth ^ 2 * r_2 ^ 2) + r_1 / (12 * hr ^ 2 * r)
  else if dm = 0 ∧ dl = 1 then
    hr ^ 2 / (12 * hth ^ 2 * r ^ 4) + k ^ 2 / 12 + 5 / (6 * hth ^ 2 * r ^ 2) - r1 / (12 * hr ^ 2 * r)
      - r_1 / (12 * hr ^ 2 * r)
  else
    hr / (24 * hth ^ 2 * r * r2 ^ 2) + 1 / (12 * hth ^ 2 * r2 ^ 2) + r1 / (12 * hr ^ 2 * r)

/-- ps/polarfd.py:172-184, the right-hand side of the scheme at node `(m, l)` -/
noncomputable def fd4Rhs (p : PolarFD) (d : PfData) (m l : ℤ) : ℂ :=
  let r := p.getR m
  let th := p.getTh l
  let hr := p.hr
  let hth := p.hth
  d.d2Fr r th * hr ^ 2 / 12 + d.d2Fth r th * hth ^ 2 / 12 + d.dFr r th * hr ^ 2 / (12 * r)
    + d.f r th * hr ^ 2 / (12 * r ^ 2) + d.f r th

/-- `it.product((-1, 0, 1), repeat=2)` -/
def pfStencil : List (ℤ × ℤ) := [-1, 0, 1].flatMap fun dm : ℤ => [-1, 0, 1].map fun dl : ℤ => (dm, dl)

/-- ps/polarfd.py:189-196 `copy_local` -/
noncomputable def pfCopyLocal (p : PolarFD) (k : ℝ) (m l : ℤ) (s : PfSys) : PfSys :=
  pfStencil.foldl (init := s) fun s x =>
    { s with entries := s.entries ++ [(fd4Coef p k m x.1 x.2, s.row, p.getIndex (m + x.1) (l + x.2))] }

open Classical in
/-- ps/polarfd.py:104-187 `set_fd4`; one of the divisors is zero exactly when one of `hr`, `hth`, `r`, `r_2`, `r2` is -/
noncomputable def pfSetFd4 (p : PolarFD) (d : PfData) (m l : ℤ) (s : PfSys) : Py PfSys :=
  if p.hr = 0 ∨ p.hth = 0 ∨ p.getR m = 0 ∨ p.getR (m - 1) = 0 ∨ p.getR (m + 1) = 0 then throw .zeroDivisionError
  else
    let s := { s with rhs := s.rhs ++ [fd4Rhs p d m l] }
    let s := pfCopyLocal p d.k m l s
    pure { s with row := s.row + 1 }

/-- ps/polarfd.py:220-229, the system built by `solve` -/
noncomputable def pfSystem (p : PolarFD) (d : PfData) : Py PfSys :=
  let s := pfBcArc p d (pfBcWedge p d (pfBcOrigin p d pfNew))
  (List.range' 1 (p.N - 1)).foldlM (init := s) fun s (m : ℕ) =>
    (List.range' 1 (p.N - 1)).foldlM (init := s) fun s (l : ℕ) => pfSetFd4 p d m l s

/-- `spsolve(M, rhs)`, on the triples of the sparse matrix and the right-hand side -/
abbrev Spsolve := List (ℝ × ℕ × ℤ) → List ℂ → List ℂ

/-- ps/polarfd.py:198-237 `solve` -/
noncomputable def pfSolve (spsolve : Spsolve) (p : PolarFD) (d : PfData) : Py (List ℂ) := do
  let s ← pfSystem p d
  return spsolve s.entries s.rhs

/-- ps/zmethod.py:233-241, the vector as an array: `v[m, l] = z[index]`; reading outside the vector is an
IndexError -/
def pfArray (p : PolarFD) (z : List ℂ) (m l : ℤ) : Py ℂ := do
  let i := p.getIndex m l
  listGet z i.toNat

/-- an `(N+1, N+1)` array read at nonnegative indices -/
def gridGet (n : ℕ) (u : ℕ → ℕ → ℂ) (i j : ℕ) : Py ℂ :=
  if i ≤ n ∧ j ≤ n then pure (u i j) else throw .indexError

/-- ps/polarfd.py:244-258, the lists `(diff12, diff01)`; `u0`, `u1`, `u2` have `n0 + 1`, `n1 + 1`, `n2 + 1` rows and
columns -/
noncomputable def pfDiffs (N : ℕ) (n0 n1 n2 : ℕ) (u0 u1 u2 : ℕ → ℕ → ℂ) : Py (List ℝ × List ℝ) :=
  (List.range' 1 (N - 1)).foldlM (init := ([], [])) fun acc m =>
    (List.range' 1 (N - 1)).foldlM (init := acc) fun acc l => do
      let d12 ← if m % 4 = 0 ∧ l % 4 = 0 then do
          let x ← gridGet n1 u1 (m / 2) (l / 2)
          let y ← gridGet n2 u2 (m / 4) (l / 4)
          pure [‖x - y‖]
        else pure []
      let d01 ← if m % 2 = 0 ∧ l % 2 = 0 then do
          let x ← gridGet n0 u0 m l
          let y ← gridGet n1 u1 (m / 2) (l / 2)
          pure [‖x - y‖]
        else pure []
      return (acc.1 ++ d12, acc.2 ++ d01)

open Classical in
/-- `np.log2(max(diff12) / max(diff01))` (ps/polarfd.py:260, solver.py:152): ValueError for an empty list, infinite or nan
when one of the maxima is zero -/
noncomputable def relRate (d : List ℝ × List ℝ) : Py ℝ := do
  let m12 ← pyMax d.1
  let m01 ← pyMax d.2
  if m12 = 0 ∨ m01 = 0 then throw .nanValue else return Real.logb 2 (m12 / m01)

/-- ps/polarfd.py:239-260 `calc_rel_convergence` -/
noncomputable def pfRelConvergence (N : ℕ) (n0 n1 n2 : ℕ) (u0 u1 u2 : ℕ → ℕ → ℂ) : Py ℝ := do
  let d ← pfDiffs N n0 n1 n2 u0 u1 u2
  relRate d

/-- solver.py:137-150, the lists `(diff12, diff01)` of the array version, loop 9 over `global_Mplus`; `u0`, `u1`, `u2`
are arrays with `n0`, `n1`, `n2` rows and columns -/
noncomputable def arrDiffs (iter : Iter) (Mplus : Finset Node) {n0 n1 n2 : ℕ} (u0 : Arr n0) (u1 : Arr n1)
    (u2 : Arr n2) : Py (List ℝ × List ℝ) :=
  (iter 9 Mplus).foldlM (init := ([], [])) fun acc nd => do
    let d12 ← if nd.1 % 4 = 0 ∧ nd.2 % 4 = 0 then do
        let x ← arrGet u1 (nd.1 / 2 - 1) (nd.2 / 2 - 1)
        let y ← arrGet u2 (nd.1 / 4 - 1) (nd.2 / 4 - 1)
        pure [‖x - y‖]
      else pure []
    let d01 ← if nd.1 % 2 = 0 ∧ nd.2 % 2 = 0 then do
        let x ← arrGet u0 (nd.1 - 1) (nd.2 - 1)
        let y ← arrGet u1 (nd.1 / 2 - 1) (nd.2 / 2 - 1)
        pure [‖x - y‖]
      else pure []
    return (acc.1 ++ d12, acc.2 ++ d01)

/-- solver.py:132-152 `_array_calc_rel_convergence` -/
noncomputable def arrRelConvergence (iter : Iter) (Mplus : Finset Node) {n0 n1 n2 : ℕ} (u0 : Arr n0) (u1 : Arr n1)
    (u2 : Arr n2) : Py ℝ := do
  let d ← arrDiffs iter Mplus u0 u1 u2
  relRate d

end Pot
