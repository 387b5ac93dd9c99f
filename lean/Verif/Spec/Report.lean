import Verif.Model.Convergence

/-!
# Specification: what a convergence run reports

`hist` is the list of the results of the earlier grids, the most recent first.
-/

namespace Spec
open Pot

/-- the rate from the error on the previous grid to the error on this one; it is not a finite number if one of them is zero -/
noncomputable def rateLines (prev cur : Option ℝ) : List (Option ℝ) :=
  match prev, cur with
  | some p, some e => [if p = 0 ∨ e = 0 then none else some (Real.logb 2 (p / e))]
  | _, _ => []

/-- the comparison of the solution `u` with the two most recent ones -/
def relLines {U : Type} (rate : U → U → U → Option ℝ) (doRel : Bool) (hist : List (SolveResult U)) (u : U) :
    List (Option ℝ) :=
  match doRel, hist with
  | true, r1 :: r2 :: _ => [rate u r1.u r2.u]
  | _, _ => []

/-- the lines printed for grid `N` with result `r`; `rate` is the comparison of three solutions, `none` if it is not a
finite number -/
noncomputable def gridReport {U : Type} (rate : U → U → U → Option ℝ) (doRel : Bool) (hist : List (SolveResult U)) (N : ℤ)
    (r : Option (SolveResult U)) : List Ev :=
  match r with
  | none => [.grid N]
  | some r =>
    [Ev.grid N] ++ r.error.toList.map Ev.error
      ++ (rateLines (hist.head?.bind fun x => x.error) r.error).map Ev.conv
      ++ (relLines rate doRel hist r.u).map Ev.rel

/-- the lines printed by a whole run over the grids `Ns`, where `res N` is the result on grid `N` -/
noncomputable def report {U : Type} (rate : ℤ → U → U → U → Option ℝ) (doRel : Bool) (res : ℤ → Option (SolveResult U))
    (Ns : List ℤ) : List Ev :=
  (List.range Ns.length).flatMap fun i =>
    gridReport (rate (Ns.getD i 0)) doRel ((Ns.take i).filterMap res).reverse (Ns.getD i 0) (res (Ns.getD i 0))

/-- the lines printed by runz.py for one quantity: the error, the comparison of the last three solutions, the rate -/
noncomputable def zLines {U : Type} (e : ℝ → ZEv) (l : Option ℝ → ZEv) (c : Option ℝ → ZEv) (rate : U → U → U → Option ℝ)
    (hist : List (SolveResult U)) (r : SolveResult U) : List ZEv :=
  r.error.toList.map e ++ (relLines rate true hist r.u).map l
    ++ (rateLines (hist.head?.bind fun x => x.error) r.error).map c

/-- the part of a result about `v`, and the part about `u` -/
def vPart {U V : Type} (r : ZResult U V) : SolveResult V := ⟨r.vError, r.v⟩
def uPart {U V : Type} (r : ZResult U V) : SolveResult U := ⟨r.uError, r.u⟩

/-- the lines printed by runz.py over the grids `Ns`, where `res N` is the result on grid `N` -/
noncomputable def zReport {U V : Type} (rateV : ℤ → V → V → V → Option ℝ) (rateU : ℤ → U → U → U → Option ℝ) (res : ℤ → ZResult U V)
    (Ns : List ℤ) : List ZEv :=
  (List.range Ns.length).flatMap fun i =>
    let N := Ns.getD i 0
    let hist := ((Ns.take i).map res).reverse
    ZEv.grid N :: zLines .vError .vRel .vConv (rateV N) (hist.map vPart) (vPart (res N))
      ++ zLines .uError .uRel .uConv (rateU N) (hist.map uPart) (uPart (res N))

end Spec
