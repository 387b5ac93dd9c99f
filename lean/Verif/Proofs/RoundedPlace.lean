import Verif.Model.RoundedGrid
import Verif.Proofs.Place

/-! # The placing loop of `ps_construct_grids` in rounded arithmetic -/

namespace Pot
open Real Spec

/-- the distance the machine computes for a segment -/
noncomputable def segDistF (e : EnvF) (nd : Node) (sid : Fin 3) : ℝ :=
  let x := (e.coord nd).1
  let y := (e.coord nd).2
  let xa := e.F.rnd (e.R * e.F.cos e.a)
  let ya := e.F.rnd (e.R * e.F.sin e.a)
  match sid with
  | 0 =>
    match e.bcoord (e.polar nd).1 (e.polar nd).2 with
    | none => dformulaF e.F e.R 0 x y
    | some c =>
      if c.2 > e.F.twoPi then dformulaF e.F e.R 0 x y
      else if c.2 < e.a then dformulaF e.F xa ya x y else |c.1|
  | 1 => if x < 0 then dformulaF e.F 0 0 x y else if x > e.R then dformulaF e.F e.R 0 x y else |y|
  | 2 =>
    let y1 := (getRadiusPointF e.F e.a x y).2
    if y1 < 0 then dformulaF e.F 0 0 x y
    else if y1 > ya then dformulaF e.F xa ya x y
    else distToRadiusF e.F e.a x y

theorem place_distF (e : EnvF) (nd : Node) (sid : Fin 3) :
    getDistF e nd sid (getEtypeF e sid nd) = .ok (segDistF e nd sid) := by
  fin_cases sid
  · unfold getEtypeF getDistF segDistF
    simp only [Fin.zero_eta, if_true]
    rcases h : e.bcoord (e.polar nd).1 (e.polar nd).2 with _ | c
    · simp
    · simp only [pure_eq_ok]
      split_ifs <;> simp_all
  · have h1 : getEtypeF e 1 nd = (if (e.coord nd).1 < 0 then .left
        else if (e.coord nd).1 > e.R then .right else .standard) := rfl
    simp only [Fin.mk_one, h1]
    unfold getDistF segDistF
    simp only
    split_ifs <;> rfl
  · have h1 : getEtypeF e 2 nd = (if (getRadiusPointF e.F e.a (e.coord nd).1 (e.coord nd).2).2 < 0 then .left
        else if (getRadiusPointF e.F e.a (e.coord nd).1 (e.coord nd).2).2 > e.F.rnd (e.R * e.F.sin e.a) then .right
        else .standard) := rfl
    simp only [Fin.reduceFinMk, h1]
    unfold getDistF segDistF
    simp only
    split_ifs <;> rfl

/-- the test `dist <= h*np.sqrt(2)` -/
def NearF (e : EnvF) (nd : Node) (sid : Fin 3) : Prop := segDistF e nd sid ≤ e.threshold

theorem placeStepF_ok (e : EnvF) (nd : Node) (st : AllGamma × Bool) (sid : Fin 3) [Decidable (NearF e nd sid)] :
    placeStepF e nd st sid = .ok (if NearF e nd sid then (Function.update st.1 sid (st.1 sid ++ [nd]), true) else st) := by
  unfold placeStepF
  rw [place_distF, ok_bind]
  by_cases hn : NearF e nd sid
  · rw [if_pos hn, if_pos (show segDistF e nd sid ≤ _ from hn)]; rfl
  · rw [if_neg hn, if_neg (show ¬ segDistF e nd sid ≤ _ from hn)]; rfl

open Classical in
theorem placeNodeF_ok (e : EnvF) (g : AllGamma) (nd : Node) :
    placeNodeF e g nd =
      if ∃ sid, NearF e nd sid then .ok (fun sid => if NearF e nd sid then g sid ++ [nd] else g sid)
      else .error .assertionError := by
  unfold placeNodeF
  simp only [List.foldlM_cons, List.foldlM_nil, placeStepF_ok, ok_bind, pure_eq_ok, throw_eq_error]
  have hex : (∃ sid, NearF e nd sid) ↔ NearF e nd 0 ∨ NearF e nd 1 ∨ NearF e nd 2 := by
    constructor
    · rintro ⟨sid, h⟩
      fin_cases sid
      · exact Or.inl h
      · exact Or.inr (Or.inl h)
      · exact Or.inr (Or.inr h)
    · rintro (h | h | h)
      exacts [⟨0, h⟩, ⟨1, h⟩, ⟨2, h⟩]
  by_cases hh : ∃ sid, NearF e nd sid
  · rw [if_pos hh]
    have h3 := hex.1 hh
    by_cases h0 : NearF e nd 0 <;> by_cases h1 : NearF e nd 1 <;> by_cases h2 : NearF e nd 2 <;>
      simp only [h0, h1, h2, or_self] at h3 <;>
      simp only [h0, h1, h2, if_true, if_false, Except.ok.injEq] <;> funext sid <;>
      fin_cases sid <;> simp [h0, h1, h2, Function.update]
  · rw [if_neg hh]
    have h0 : ¬ NearF e nd 0 := fun h => hh ⟨0, h⟩
    have h1 : ¬ NearF e nd 1 := fun h => hh ⟨1, h⟩
    have h2 : ¬ NearF e nd 2 := fun h => hh ⟨2, h⟩
    simp [h0, h1, h2]

open Classical in
theorem placeAllF (e : EnvF) (l : List Node) (g : AllGamma) :
    l.foldlM (placeNodeF e) g =
      if ∀ nd ∈ l, ∃ sid, NearF e nd sid then .ok (fun sid => g sid ++ l.filter fun nd => decide (NearF e nd sid))
      else (.error .assertionError : Py AllGamma) := by
  induction l generalizing g with
  | nil => simp
  | cons x l ih =>
    rw [List.foldlM_cons, placeNodeF_ok]
    by_cases hx : ∃ sid, NearF e x sid
    · rw [if_pos hx, ok_bind, ih]
      by_cases hl : ∀ nd ∈ l, ∃ sid, NearF e nd sid
      · have hc : ∀ nd ∈ x :: l, ∃ sid, NearF e nd sid := by
          intro nd hnd; rcases List.mem_cons.1 hnd with rfl | h
          · exact hx
          · exact hl _ h
        rw [if_pos hl, if_pos hc]
        congr 1
        funext sid
        by_cases hs : NearF e x sid
        · rw [if_pos hs, List.filter_cons_of_pos (by simpa using hs)]; simp
        · rw [if_neg hs, List.filter_cons_of_neg (by simpa using hs)]
      · rw [if_neg hl, if_neg]
        intro h; exact hl fun nd hnd => h nd (List.mem_cons_of_mem _ hnd)
    · rw [if_neg hx, error_bind, if_neg]
      intro h; exact hx (h x (List.mem_cons_self ..))

open Classical in
theorem psConstructGridsF_eq (iter : Iter) (e : EnvF) (order : ℕ) :
    let g := constructGrids iter e.N order e.interior
    let ns := nSets iter order g
    let ug := iter 3 (ns.1 ∩ ns.2)
    psConstructGridsF iter e order =
      if ∀ nd ∈ ug, ∃ sid, NearF e nd sid then
        .ok { g with Nplus := ns.1, Nminus := ns.2, unionGamma := ug,
                     allGamma := fun sid => ug.filter fun nd => decide (NearF e nd sid) }
      else .error .assertionError := by
  intro g ns ug
  unfold psConstructGridsF
  simp only
  rw [placeAllF]
  by_cases h : ∀ nd ∈ ug, ∃ sid, NearF e nd sid
  · rw [if_pos h, if_pos h]; simp [g, ns, ug]
  · rw [if_neg h, if_neg h]; rfl

end Pot
