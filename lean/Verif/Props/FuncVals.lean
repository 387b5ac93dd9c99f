import Verif.Model.FuncVals
import Verif.Proofs.Calls

/-!
# C119: functions that are stored or passed get as many arguments as they take

C117 is about calls whose function is known by its name.  Here: the calls of parameters, local variables and attributes that hold a
function.
-/

namespace Pot
namespace FuncVals

open Calls

variable {V : Type}

/-- all slots -/
def slots : List Slot := [.brentqF, .odeintF, .poolMultirun, .poolOptimize, .chebDerivs, .arcDstFunc, .odeFunc, .odeArcDst, .odeInitial, .odeDInitial, .odeF1,
  .lam, .myLambdify, .vSeriesLambda, .zVAsympt, .zInitial, .zDInitial, .zVSeries, .zGq, .zF1, .toDst, .phi0, .phi1, .phi2,
  .expectedPolar, .zero, .solvePhiInitial, .solvePhi0, .solvePhi1, .solvePhi2, .solveF, .solveDFr, .solveD2Fr, .solveD2Fth,
  .pfPhiInitial, .pfPhi0, .pfPhi1, .pfPhi2, .pfF, .pfDFr, .pfD2Fr, .pfD2Fth, .aCoefBc0, .chebFunc, .bc, .aPhi0, .vInterp, .realInterp,
  .imagInterp, .uVAsympt, .uPhi0, .uPhi1, .uPhi2, .uExpected, .quadP, .bR, .bDRTh, .bD2RTh, .bDXTh, .bDYTh, .bDThS, .bD2ThS, .bD3ThS,
  .bD4ThS, .bCurv, .bDCurvTh, .bD2CurvTh, .sPolarLambda, .sDFR, .sD2FR, .sDFTh, .sD2FTh, .sD2FRTh, .applyL, .solveAp, .symVAsympt,
  .testInterp]

theorem mem_slots (s : Slot) : s ∈ slots := by cases s <;> decide

/-- the functions in a slot after so many steps -/
def after : ℕ → Slot → List Fun
  | 0, _ => []
  | k + 1, s => (src s).flatMap fun
    | .val _ f => [f]
    | .flow _ t => after k t

theorem after_holds : ∀ (k : ℕ) (s : Slot) (f : Fun), f ∈ after k s → Holds s f
  | 0, _, _, h => by simp [after] at h
  | k + 1, s, f, h => by
    rw [after, List.mem_flatMap] at h
    obtain ⟨x, hx, hf⟩ := h
    cases x with
    | val p g =>
      obtain rfl := List.mem_singleton.1 hf
      exact .val hx
    | flow p t => exact .flow hx (after_holds k t f hf)

/-- one place, given functions for the slots -/
def closed (r : Slot → List Fun) (s : Slot) : Src → Bool
  | .val _ f => decide (f ∈ r s)
  | .flow _ t => (r t).all fun f => decide (f ∈ r s)

theorem closed_after : ∀ s ∈ slots, ((src s).all (closed (after 5) s)) = true := by decide +kernel

theorem holds_after {s : Slot} {f : Fun} (h : Holds s f) : f ∈ after 5 s := by
  have hc : ∀ {s : Slot} {x : Src}, x ∈ src s → closed (after 5) s x = true := fun {s x} hx =>
    List.all_eq_true.1 (closed_after s (mem_slots s)) x hx
  induction h with
  | val h => simpa only [closed, decide_eq_true_eq] using hc h
  | flow h _ ih =>
    have := hc h
    simp only [closed, List.all_eq_true, decide_eq_true_eq] at this
    exact this _ ih

theorem holds_iff {s : Slot} {f : Fun} : Holds s f ↔ f ∈ after 5 s := ⟨holds_after, after_holds 5 s f⟩

/-- whether the function takes `n` positional arguments, and, unless it is an `interp2d`, no other number -/
def takes (f : Fun) (n : ℕ) : Bool :=
  match sigOf f with
  | Option.none => false
  | some s => nodupB s.params && Nat.ble s.req n && Nat.ble n s.params.length && !s.vararg &&
      (match f with
        | .interp2d _ => true
        | _ => Nat.beq s.req s.params.length)

theorem uses_take : ∀ u ∈ uses, u.slot = .testInterp ∨ ∀ f ∈ after 5 u.slot, takes f u.n = true := by decide +kernel

theorem bind_pos {s : Sig} (hs : s.params.Nodup) {args : List V} (h1 : s.req ≤ args.length) (h2 : args.length ≤ s.params.length) :
    bind s args [] = .ok ⟨s.params.zip args, [], []⟩ := by
  have hf : Fits s args.length (([] : List (ℕ × V)).map Prod.fst) := by
    refine ⟨Or.inl h2, by simp, by simp, fun p hp => ?_⟩
    rw [List.drop_eq_nil_of_le (by rw [List.length_take]; omega)] at hp
    simp at hp
  rw [bind_ok hs hf, List.drop_eq_nil_of_le h2]
  simp [named, others]

theorem bind_pos_inv {s : Sig} (hs : s.params.Nodup) (hv : s.vararg = false) (hr : s.req ≤ s.params.length) {args : List V} {F : Frame V}
    (h : bind s args [] = .ok F) : s.req ≤ args.length ∧ args.length ≤ s.params.length := by
  have hf := bind_inv hs h
  refine ⟨?_, ?_⟩
  · by_contra hc
    have : (s.params.take s.req).drop args.length ≠ [] := by
      intro h0
      have := congrArg List.length h0
      rw [List.length_drop, List.length_take, List.length_nil] at this
      omega
    obtain ⟨p, hp⟩ := List.exists_mem_of_ne_nil _ this
    simpa using hf.full p hp
  · rcases hf.count with h | h
    · exact h
    · rw [hv] at h; simp at h

/-- **C119**: at every call of a parameter, variable or attribute that holds a function, the call goes through, whichever function is there and
whatever the arguments are: all of them go to parameters, in their order, and nothing is left over. -/
theorem C119_fits {u : Use} (hu : u ∈ uses) (ht : u.slot ≠ .testInterp) {f : Fun} (hf : Holds u.slot f) {args : List V}
    (hl : args.length = u.n) :
    ∃ F, call f args = .ok F ∧ F.loc.map Prod.snd = args ∧ F.rest = [] ∧ F.extra = [] := by
  have h := (uses_take u hu).resolve_left ht f (holds_iff.1 hf)
  rw [takes] at h
  rw [call]
  cases hs : sigOf f with
  | none => rw [hs] at h; simp at h
  | some s =>
    rw [hs] at h
    simp only [Bool.and_eq_true, nodupB_iff, Nat.ble_eq] at h
    obtain ⟨⟨⟨⟨h1, h2⟩, h3⟩, _⟩, _⟩ := h
    rw [← hl] at h2 h3
    simp only [bind_pos h1 h2 h3]
    exact ⟨_, rfl, by rw [List.map_snd_zip h3], rfl, rfl⟩

/-- **C119**: no other number of arguments would do, except for the two objects of `interp2d`, which have three optional parameters -/
theorem C119_only {u : Use} (hu : u ∈ uses) (hr : u.slot ≠ .realInterp) (hi : u.slot ≠ .imagInterp) {f : Fun} (hf : Holds u.slot f)
    {args : List V} {F : Frame V} (h : call f args = .ok F) : args.length = u.n := by
  by_cases ht : u.slot = .testInterp
  · rw [ht, holds_iff] at hf
    obtain rfl := List.mem_singleton.1 hf
    simp [call, sigOf] at h
  · have hk := (uses_take u hu).resolve_left ht f (holds_iff.1 hf)
    have hn : ∀ u ∈ uses, u.slot = .realInterp ∨ u.slot = .imagInterp ∨ ∀ f ∈ after 5 u.slot, ∀ s, sigOf f = some s →
        s.req = s.params.length := by
      have : ∀ u ∈ uses, u.slot = .realInterp ∨ u.slot = .imagInterp ∨ ∀ f ∈ after 5 u.slot,
          (match sigOf f with
            | none => true
            | some s => Nat.beq s.req s.params.length) = true := by decide +kernel
      intro u hu
      rcases this u hu with h | h | h
      · exact Or.inl h
      · exact Or.inr (Or.inl h)
      · refine Or.inr (Or.inr fun f hf s hs => ?_)
        have := h f hf
        rw [hs] at this
        exact Nat.eq_of_beq_eq_true this
    have hq := ((hn u hu).resolve_left hr).resolve_left hi f (holds_iff.1 hf)
    rw [takes] at hk
    rw [call] at h
    cases hs : sigOf f with
    | none => rw [hs] at hk; simp at hk
    | some s =>
      rw [hs] at hk h
      have hq := hq s hs
      simp only [Bool.and_eq_true, nodupB_iff, Nat.ble_eq, Bool.not_eq_true'] at hk
      obtain ⟨⟨⟨⟨h1, h2⟩, h3⟩, h4⟩, _⟩ := hk
      cases hb : bind s args [] with
      | error e => simp [hb] at h
      | ok G =>
        have := bind_pos_inv h1 h4 (Nat.le_of_eq hq) hb
        omega

/-- **C119**: every slot that is called has a function put into it -/
theorem C119_live : ∀ u ∈ uses, ∃ f, Holds u.slot f := by
  have h : ∀ u ∈ uses, (after 5 u.slot).isEmpty = false := by decide +kernel
  intro u hu
  obtain ⟨f, hf⟩ := List.exists_mem_of_ne_nil (after 5 u.slot) (by
    intro h0
    have := h u hu
    rw [h0] at this
    simp at this)
  exact ⟨f, holds_iff.2 hf⟩

/-- **C119**: the one exception: what scripts/zmethod/interp_test.py:52 calls is `None`, as `create_v_interp` has no `return` -/
theorem C119_none {f : Fun} (hf : Holds .testInterp f) (args : List V) : f = .none ∧ call f args = .error .notCallable := by
  rw [holds_iff] at hf
  obtain rfl := List.mem_singleton.1 hf
  exact ⟨rfl, rfl⟩

/-- **C119**: a parameter that holds a function gets it from the calls of its function in the table of C117, all of them, and they all have a positional
argument for it -/
theorem C119_complete : ∀ s : Slot, ∀ t key i, paramOf s = some (t, key, i) →
    (∃ f, fns[t]? = some f ∧ f.sig.params[i]? = some key) ∧
    (src s).map Src.place = (calls.filter fun c => decide (t ∈ c.targets)).map (fun c => c.place) ∧
    ∀ c ∈ calls, t ∈ c.targets → i < c.npos := by
  have h : ∀ s ∈ slots, (match paramOf s with
      | none => true
      | some (t, key, i) => (match fns[t]? with
          | none => false
          | some f => decide (f.sig.params[i]? = some key)) &&
        decide ((src s).map Src.place = (calls.filter fun c => Calls.mem t c.targets).map fun c => c.place) &&
        calls.all fun c => !Calls.mem t c.targets || Nat.blt i c.npos) = true := by
    decide +kernel
  intro s t key i hp
  have := h s (mem_slots s)
  rw [hp] at this
  simp only [Bool.and_eq_true, decide_eq_true_eq, List.all_eq_true, Bool.or_eq_true, Bool.not_eq_true', Nat.blt_eq] at this
  obtain ⟨⟨h1, h2⟩, h3⟩ := this
  refine ⟨?_, ?_, fun c hc ht => ?_⟩
  · cases hf : fns[t]? with
    | none => rw [hf] at h1; simp at h1
    | some f =>
      rw [hf] at h1
      exact ⟨f, rfl, by simpa using h1⟩
  · rw [h2]
    congr 1
    refine List.filter_congr fun c _ => ?_
    rw [Bool.eq_iff_iff, Calls.mem_iff, decide_eq_true_eq]
  · rcases h3 c hc with h | h
    · rw [Calls.mem_iff.2 ht] at h; simp at h
    · exact h

/-- the lambdas that are put into slots -/
def lambdasOf (s : Slot) : List (String × ℕ) := (src s).filterMap fun
  | .val _ (.lam p n) => some (p, n)
  | _ => none

/-- **C119**: no lambda is left out: each of the repository is put into exactly one slot -/
theorem C119_lambdas : lambdas.Nodup ∧ (slots.flatMap lambdasOf).Nodup ∧ ∀ e, e ∈ lambdas ↔ ∃ s, e ∈ lambdasOf s := by
  have h : lambdas.Nodup ∧ (slots.flatMap lambdasOf).Nodup ∧ (∀ e ∈ lambdas, e ∈ slots.flatMap lambdasOf) ∧
      ∀ e ∈ slots.flatMap lambdasOf, e ∈ lambdas := by decide +kernel
  refine ⟨h.1, h.2.1, fun e => ⟨fun he => ?_, fun ⟨s, hs⟩ => ?_⟩⟩
  · obtain ⟨s, _, hs⟩ := List.mem_flatMap.1 (h.2.2.1 e he)
    exact ⟨s, hs⟩
  · exact h.2.2.2 e (List.mem_flatMap.2 ⟨s, mem_slots s, hs⟩)

/-- the names of the functions of the repository that are used as values, in the order of `slots` -/
def used : List (Option String) := (slots.flatMap fun s => (src s).filterMap fun
  | .val _ (.fn i) => some i
  | _ => none).map fun i => (fns[i]?).map fun f => f.name

/-- **C119**: the functions of the repository that are used as values -/
theorem C119_used : used = [
    some "problems/boundary.py:126 Boundary.get_boundary_coord.eval_dist_deriv", some "ps/ode.py:37 calc_z1_fourier.eval_deriv",
    some "scripts/multirun.py:20 worker", some "scripts/optimize_basis.py:52 worker", some "chebyshev.py:9 eval_T",
    some "chebyshev.py:13 eval_d_T_t", some "chebyshev.py:17 eval_d2_T_t", some "chebyshev.py:20 eval_d3_T_t",
    some "chebyshev.py:23 eval_d4_T_t", some "chebyshev.py:26 eval_d5_T_t",
    some "ps/zmethod.py:187 ZMethod.get_expected_z1_fourier.z1_expected", some "ps/zmethod.py:285 ZMethod.get_expected_a_coef.eval_diff",
    some "ps/zmethod.py:282 ZMethod.get_expected_a_coef.eval_bc0", some "ps/zmethod.py:108 ZMethod.do_algebra.my_lambdify.newfunc",
    some "problems/sing_ihz.py:140 IZ_Bessel.eval_phi0", some "problems/sing_ihz.py:159 IHZ_Bessel_Line.eval_phi0",
    some "problems/sing_ihz.py:225 IHZ_Bessel_Quadratic.eval_phi0", some "problems/sing_ihz.py:144 IZ_Bessel.eval_phi1",
    some "problems/sing_ihz.py:167 IHZ_Bessel_Line.eval_phi1", some "problems/sing_ihz.py:235 IHZ_Bessel_Quadratic.eval_phi1",
    some "problems/sing_ihz.py:150 IZ_Bessel.eval_phi2", some "problems/sing_ihz.py:178 IHZ_Bessel_Line.eval_phi2",
    some "problems/sing_ihz.py:241 IHZ_Bessel_Quadratic.eval_phi2", some "problems/problem.py:26 Problem.eval_expected_polar",
    some "problems/sing_ihz.py:153 IZ_Bessel.eval_expected_polar", some "problems/singular.py:42 SingularKnown.eval_expected_polar",
    some "ps/zmethod.py:209 ZMethod.do_z_BVP.eval_phi0", some "ps/zmethod.py:257 ZMethod.calc_a_coef.eval_bc0",
    some "scripts/abcoef/bet_generate.py:41 eval_phi0", some "scripts/abcoef/generate_data.py:30 eval_phi0",
    some "scripts/abcoef/generate_data2.py:29 go.eval_phi0", some "scripts/abcoef/run_test.py:36 eval_phi0",
    some "scripts/abcoef/run_test.py:36 eval_phi0", some "ps/basis.py:125 PsBasis.calc_c0.func",
    some "ps/debug.py:98 PsDebug.calc_c1_exact.func", some "ps/zmethod.py:339 ZMethod.create_v_interp.interp"] := by
  decide +kernel

/-- the methods of the singular problems with the boundary data of a segment, by their names in the table of C117 -/
def phiNames : Fin 3 → List String
  | 0 => ["problems/sing_ihz.py:140 IZ_Bessel.eval_phi0", "problems/sing_ihz.py:159 IHZ_Bessel_Line.eval_phi0",
      "problems/sing_ihz.py:225 IHZ_Bessel_Quadratic.eval_phi0"]
  | 1 => ["problems/sing_ihz.py:144 IZ_Bessel.eval_phi1", "problems/sing_ihz.py:167 IHZ_Bessel_Line.eval_phi1",
      "problems/sing_ihz.py:235 IHZ_Bessel_Quadratic.eval_phi1"]
  | 2 => ["problems/sing_ihz.py:150 IZ_Bessel.eval_phi2", "problems/sing_ihz.py:178 IHZ_Bessel_Line.eval_phi2",
      "problems/sing_ihz.py:241 IHZ_Bessel_Quadratic.eval_phi2"]

/-- the name of a function -/
def nameOf : Fun → Option String
  | .fn i => (fns[i]?).map fun f => f.name
  | _ => none

/-- **C119**: what is taken for the boundary data of a segment in the z-method is the method for that segment: by the fit of the coefficients
and by the remaining problem on all three segments, by the polar solver on the two radii (on its arc it is the function of ps/zmethod.py:209) -/
theorem C119_phi : ∀ e ∈ ([(.aPhi0, 0), (.uPhi0, 0), (.uPhi1, 1), (.uPhi2, 2), (.pfPhi1, 1), (.pfPhi2, 2)] : List (Slot × Fin 3)),
    (∀ f, Holds e.1 f → ∃ n ∈ phiNames e.2, nameOf f = some n) ∧ ∀ n ∈ phiNames e.2, ∃ f, Holds e.1 f ∧ nameOf f = some n := by
  have h : ∀ e ∈ ([(.aPhi0, 0), (.uPhi0, 0), (.uPhi1, 1), (.uPhi2, 2), (.pfPhi1, 1), (.pfPhi2, 2)] : List (Slot × Fin 3)),
      (after 5 e.1).map nameOf = (phiNames e.2).map some := by decide +kernel
  intro e he
  refine ⟨fun f hf => ?_, fun n hn => ?_⟩
  · have := List.mem_map_of_mem (f := nameOf) (holds_iff.1 hf)
    rw [h e he, List.mem_map] at this
    obtain ⟨n, hn, hnf⟩ := this
    exact ⟨n, hn, hnf.symm⟩
  · have := List.mem_map_of_mem (f := some) hn
    rw [← h e he, List.mem_map] at this
    obtain ⟨f, hf, hfn⟩ := this
    exact ⟨f, holds_iff.2 hf, hfn⟩

/-- **C119**: the functions that the z-method makes from expressions are all the one of `my_lambdify` (ps/zmethod.py:108), which returns 0 at the tip:
those the ODE method integrates, the one subtracted from the boundary data, and the one on the inner arc -/
theorem C119_lambdified : ∀ s ∈ ([.odeInitial, .odeDInitial, .odeF1, .uVAsympt, .zGq, .zVSeries, .vSeriesLambda] : List Slot), ∀ f,
    Holds s f ↔ f = .fn 193 := by
  have h : ∀ s ∈ ([.odeInitial, .odeDInitial, .odeF1, .uVAsympt, .zGq, .zVSeries, .vSeriesLambda] : List Slot), after 5 s = [.fn 193] := by
    decide +kernel
  intro s hs f
  rw [holds_iff, h s hs, List.mem_singleton]

/-- the function of ps/zmethod.py:108 gets from `do_algebra` to `calc_z1_fourier` and is called there with two arguments (ps/ode.py:30) -/
example : Holds .odeF1 (.fn 193) ∧ (⟨"ps/ode.py:30", .odeF1, 2⟩ : Use) ∈ uses := by
  have h1 : Holds .myLambdify (.fn 193) := .val (p := "ps/zmethod.py:114") (by simp [src])
  have h2 : Holds .zF1 (.fn 193) := .flow (p := "ps/zmethod.py:131") (by simp [src]) h1
  exact ⟨.flow (p := "ps/zmethod.py:166") (by simp [src]) h2, by simp [uses]⟩

/-- with three arguments it would not -/
example : call (.fn 193) [0, 1, 2] = .error (.args .tooMany) := by rfl

/-- the method `eval_phi0` of `IHZ_Bessel_Quadratic` gets to the boundary data of the remaining problem (ps/zmethod.py:376) -/
example : Holds .uPhi0 (.fn 68) := .flow (p := "ps/zmethod.py:353") (t := .phi0) (by simp [src]) (.val (p := "problems/sing_ihz.py:225") (by simp [src]))

end FuncVals
end Pot
