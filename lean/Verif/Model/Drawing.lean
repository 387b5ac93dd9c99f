import Verif.Model.Main

/-!
# Model of `scripts/plot_domain.py` and `scripts/plot_domain2.py`: the figures of the domain

A figure is the list of the data passed to `plt.plot`, in order: a line through a list of points, or marks at them with the
label of the legend.

Left out: colours, widths, kinds of markers, the aspect and the legend; that the figure is written to a file of the author's
machine (plot_domain.py:145, 202, 223, plot_domain2.py:146).  `plt.show()` returns.  The command line is three values; `argparse`
has checked that the method is one of the seven and that the boundary is in the table (plot_domain.py:181-185).  The functions
`plot_Mplus` (both files) and `plot_gamma` (the second) are never called (`Model/Unused.lean`).
-/

namespace Pot
open Real

/-- the data of one call of `plt.plot` -/
inductive Drawn where
  | line (pts : List (ℝ × ℝ))
  | marks (label : String) (pts : List (ℝ × ℝ))

/-- ps/debug.py:20-41 `get_boundary_sample(extended=True)` -/
noncomputable def getBoundarySampleExt (a R : ℝ) (evalR : ℝ → ℝ) (n : ℕ) : List (List SamplePoint) :=
  let dth := a / 4
  [getBoundarySample a R evalR n, getBoundarySampleBySid a R evalR 0 (linspace (2 * π) (2 * π + dth) n),
    getBoundarySampleBySid a R evalR 0 (linspace (a - dth) a n)]

/-- plot_domain.py:16-23 and plot_domain2.py:16-21 `plot_aux` -/
noncomputable def plotAux (e : Env) : List Drawn :=
  let s := e.AD / 2
  [.line [(-s, s), (s, s), (s, -s), (-s, -s), (-s, s)]]

/-- plot_domain.py:25-30 and plot_domain2.py:23-28 `plot_arc` -/
noncomputable def plotArc (e : Env) : List Drawn :=
  [.line ((linspace e.a (2 * π) 512).map fun th => (e.R * cos th, e.R * sin th))]

/-- plot_domain.py:32-48 `plot_Gamma`: all samples, or only the first of them -/
noncomputable def plotGamma (e : Env) (extended : Bool := true) : List Drawn :=
  let samples := getBoundarySampleExt e.a e.R e.evalR 100
  (if extended then samples else samples.take 1).map fun sample => .line (sample.map fun p => (p.x, p.y))

/-- plot_domain.py:50-61 `nodes_to_plottable` -/
noncomputable def nodesToPlottable (e : Env) (nodes : List Node) : List (ℝ × ℝ) := nodes.map e.coord

/-- plot_domain.py:83-112 `plot_allMK`: `m` or `k` (any other letter would be an UnboundLocalError).  Loops 20, 21, 22. -/
noncomputable def plotAllMK (iter : Iter) (e : Env) (G : PsGrids) (m : Bool) : List Drawn :=
  plotGamma e false ++
    (if m then [.marks "$\\mathbb{M}^+$" (nodesToPlottable e (iter 20 G.Mplus)), .marks "$\\mathbb{M}^-$" (nodesToPlottable e (iter 21 G.Mminus))]
    else [.marks "$\\mathbb{K}^+$" (nodesToPlottable e (iter 22 G.Kplus)), .marks "" (nodesToPlottable e [])])

/-- plot_domain.py:114-147 `plot_intext`.  Loops 23 to 26. -/
noncomputable def plotIntExt (iter : Iter) (e : Env) (G : PsGrids) (interior : Bool) : List Drawn :=
  plotGamma e false ++ plotAux e ++
    (if interior then [.marks "$\\mathbb{M}^+$" (nodesToPlottable e (iter 23 G.Mplus)), .marks "$\\mathbb{N}^+$" (nodesToPlottable e (iter 24 G.Nplus))]
    else [.marks "$\\mathbb{M}^-$" (nodesToPlottable e (iter 25 G.Mminus)), .marks "$\\mathbb{N}^-$" (nodesToPlottable e (iter 26 G.Nminus))])

/-- plot_domain.py:149-173 `plot_gamma`; `sidmap` names the segments 0, 1, 2 by 3, 2, 1 -/
noncomputable def plotGammaNodes (e : Env) (G : PsGrids) : List Drawn :=
  plotGamma e false ++ [.marks "$\\gamma_1$" (nodesToPlottable e (G.allGamma 2)),
    .marks "$\\gamma_2$" (nodesToPlottable e (G.allGamma 1)), .marks "$\\gamma_3$" (nodesToPlottable e (G.allGamma 0))]

/-- plot_domain.py:197-225 -/
noncomputable def domainFigure (iter : Iter) (e : Env) (G : PsGrids) : String → List Drawn
  | "gamma" => plotAux e ++ plotGammaNodes e G
  | "pert" => plotArc e ++ plotGamma e false
  | "m" => plotAllMK iter e G true
  | "k" => plotAllMK iter e G false
  | "int" => plotIntExt iter e G true
  | "ext" => plotIntExt iter e G false
  | "aux" => plotAux e ++ plotGamma e false
  | _ => []

/-- plot_domain.py:187-225: the problem is `Smooth_Sine`, the scheme is the one of fourth order.  `none`: `get_n_basis` does not
return within the fuel. -/
noncomputable def plotDomain (iter : Iter) (b : Brentq) (fuel : ℕ) (method boundary : String) (N : ℤ) : Option (Py (List Drawn)) :=
  match chooseBoundary boundary with
  | .error er => some (.error er)
  | .ok r => do
    let size ← getNBasis (some smoothSine.nBasis) defaultNBasis fuel N
    return do
      let m ← mainBuild iter b smoothSine r 4 (fun _ => size) N
      return domainFigure iter m.s.e m.s.G method

/-- plot_domain2.py:30-42 `plot_Gamma(sid)` -/
noncomputable def plotGammaSid (e : Env) (sid : ℕ) : List Drawn :=
  [.line (((getBoundarySample e.a e.R e.evalR 100).filter fun p => p.sid = sid).map fun p => (p.x, p.y))]

/-- plot_domain2.py:124-126 and 134-136, `PizzaSolver(options)` with `problem.a` set to `a`: the boundary object keeps the angle `ab`
it was made with.  `N` is 16, the basis sizes are those of `Smooth_Sine` for it; of the source only that it is zero matters. -/
noncomputable def domainSolver (iter : Iter) (b : Brentq) (a ab : ℝ) (r : ℝ → ℝ) : Py Env := do
  let s ← psInit iter ⟨16, probAD, a, probR, r, getBoundaryCoord b ab r⟩ 4 smoothK (1 / 1000) 20 6 zeroSource
  let _ ← initApSolF 15 iter s
  return s.e

/-- plot_domain2.py:120-139, one figure: the angle `a`, the curve `r0` made with this angle and the curve `r1` made with the default
angle π/4 (problems/boundary.py:12) -/
noncomputable def curvesFigure (iter : Iter) (b : Brentq) (a : ℝ) (r0 r1 : ℝ → ℝ) : Py (List Drawn) := do
  let e0 ← domainSolver iter b a a r0
  let e1 ← domainSolver iter b a probA r1
  return plotArc e0 ++ plotGammaSid e0 1 ++ plotGammaSid e0 2 ++ plotGammaSid e0 0 ++ plotGammaSid e1 0

/-- plot_domain2.py:97-150: the two figures -/
noncomputable def plotDomain2 (iter : Iter) (b : Brentq) : Py (List (List Drawn)) := do
  let f0 ← curvesFigure iter b (π / 6) (innerSineR probR (bet0 "inner-sine") (π / 6)) (cubicR probR (bet0 "cubic") probA)
  let f1 ← curvesFigure iter b (π / 2) (outerSineR probR (bet0 "outer-sine") (π / 2)) (sine7R probR (bet0 "sine7") probA)
  return [f0, f1]

end Pot
