import Verif.Proofs.BesselSign
import Verif.Props.Multirun

/-!
# C110: no Bessel function the programs divide by is zero
-/

namespace Pot
open Real Spec

theorem table_line : (List.range 106).all (fun m => bCheck 385641 6400 (4 * m) 7 45) = true := by decide +kernel

theorem table_quad : (List.range 268).all (fun m => bCheck 978121 6400 (4 * m) 7 45) = true := by decide +kernel

/-- **C110** a Bessel function is positive while the square of half of the argument is below the order plus one -/
theorem C110_positive {nu x : ℝ} (hnu : 0 ≤ nu) (hx : 0 < x) (h : (x / 2) ^ 2 < nu + 1) : 0 < besselJ nu x := besselJ_pos hnu hx h

/-- **C110** With the shipped radius 2.3 and angle `π/4` (so that `nu = 4/7`) and the wave numbers of the shipped problems, no Bessel function
of an order `m nu` vanishes at `k R`, for any `m` at all. -/
theorem C110_nonzero (m : ℕ) : besselJ (m * (4 / 7)) (27 / 4 * 2.3) ≠ 0 ∧ besselJ (m * (4 / 7)) (43 / 4 * 2.3) ≠ 0 := by
  have e : (m : ℝ) * (4 / 7) = ((4 * m : ℕ) : ℝ) / (7 : ℕ) := by push_cast; ring
  constructor
  · by_cases hm : m < 106
    · rw [e]
      exact besselJ_ne (by norm_num) (by norm_num) (List.all_eq_true.1 table_line m (List.mem_range.2 hm)) (by norm_num) (by norm_num)
    · refine (besselJ_pos (by positivity) (by norm_num) ?_).ne'
      have : (106 : ℝ) ≤ m := by exact_mod_cast Nat.not_lt.1 hm
      norm_num
      linarith
  · by_cases hm : m < 268
    · rw [e]
      exact besselJ_ne (by norm_num) (by norm_num) (List.all_eq_true.1 table_quad m (List.mem_range.2 hm)) (by norm_num) (by norm_num)
    · refine (besselJ_pos (by positivity) (by norm_num) ?_).ne'
      have : (268 : ℝ) ≤ m := by exact_mod_cast Nat.not_lt.1 hm
      norm_num
      linarith

/-- the routine `jv` has a relative error below one at the points where the programs divide by its values -/
def JvClose (jv : ℝ → ℝ → ℝ) : Prop :=
  ∀ m : ℕ, 1 ≤ m → ∀ k ∈ ({27 / 4, 43 / 4} : Set ℝ), |jv (m * (4 / 7)) (k * 2.3) - besselJ (m * (4 / 7)) (k * 2.3)| < |besselJ (m * (4 / 7)) (k * 2.3)|

theorem JvClose.ne {jv : ℝ → ℝ → ℝ} (h : JvClose jv) {m : ℕ} (hm : 1 ≤ m) {k : ℝ} (hk : k ∈ ({27 / 4, 43 / 4} : Set ℝ)) :
    jv (m * (4 / 7)) (k * 2.3) ≠ 0 := by
  intro h0
  have := h m hm k hk
  rw [h0, zero_sub, abs_neg] at this
  exact lt_irrefl _ this

/-- **C110** the exact function, and every routine with half of its digits, is close enough -/
theorem C110_close : JvClose besselJ ∧ ∀ {jv : ℝ → ℝ → ℝ}, (∀ nu x, |jv nu x - besselJ nu x| ≤ 1 / 10 ^ 8 * |besselJ nu x|) → JvClose jv := by
  have hne : ∀ m : ℕ, ∀ k ∈ ({27 / 4, 43 / 4} : Set ℝ), 0 < |besselJ (m * (4 / 7)) (k * 2.3)| := by
    intro m k hk
    rw [abs_pos]
    rcases hk with rfl | rfl
    · exact (C110_nonzero m).1
    · exact (C110_nonzero m).2
  refine ⟨fun m _ k hk => by rw [sub_self, abs_zero]; exact hne m k hk, fun h m _ k hk => ?_⟩
  refine (h _ _).trans_lt ?_
  have := hne m k hk
  linarith

/-- **C110** runz.py, without an assumption about zeros: every command line that is accepted with `N` in a window (and a problem that is not
smooth) runs to its last line; for `cubic` if no node lies on the curve. -/
theorem C110_runz {int : Str → Option ℤ} {negNum : Str → Bool} {iter : Iter} (hit : IsIter iter) {lib : ZLib} (hl : GoodLib lib)
    (hjv : JvClose lib.jv) (argv : List String) :
    (∃ e : Ended MainZEv, (e = .help ∨ e = .usage ∨ "--" ∈ argv ∧ e = .ran [] (.error .typeError)) ∧
      ∀ fuel, runzCommand int negNum iter lib fuel argv = some e) ∨
    ∃ args, Accepted argv args ∧
      (∀ fuel, runzCommand int negNum iter lib fuel argv = (runzMain iter lib fuel args).map fun out => .ran out.1 out.2) ∧
      (Window args.N → args.problem ∉ ["smooth-sine", "smooth-e", "smooth-ycos"] →
        (args.boundary = "cubic" → ∀ r, chooseBoundary "cubic" = .ok r → ∀ i : ℕ, OffCurve r (args.N * 2 ^ i)) →
        ∃ lines fuel0, ∀ fuel, fuel0 ≤ fuel → runzCommand int negNum iter lib fuel argv = some (.ran lines (.ok ()))) := by
  rcases C93_runz (int := int) (negNum := negNum) hit hl argv with h | ⟨args, h1, h2, -, -, -, h⟩
  · exact .inl h
  · refine .inr ⟨args, h1, h2, fun hw hp hoff => h hw hp hoff fun m hm => hjv.ne ?_ ?_⟩
    · split_ifs at hm <;> omega
    · split_ifs
      · exact .inr rfl
      · exact .inl rfl

/-- **C110** the runs of scripts/multirun.py (C108), without an assumption about zeros -/
theorem C110_batch {int : Str → Option ℤ} {negNum : Str → Bool} (T : PyText int negNum) (h1024 : int "1024".toList = some 1024) {iter : Iter}
    (hit : IsIter iter) {lib : ZLib} (hl : GoodLib lib) (hjv : JvClose lib.jv) {b : String} (hb : b ∈ boundaryNames)
    (hoff : b = "cubic" → ∀ r, chooseBoundary "cubic" = .ok r → ∀ i : ℕ, OffCurve r (16 * 2 ^ i)) :
    ∃ lines fuel0, ∀ fuel, fuel0 ≤ fuel → runzCommand int negNum iter lib fuel ["ihz-bessel-line", b, "-c", "1024"] = some (.ran lines (.ok ())) := by
  obtain ⟨_, _, _, fuel0, -, -, -, -, -, h⟩ := C108_runs T h1024 hit hl hb hoff (fun _ m hm _ => hjv.ne (by omega) (.inl rfl))
  exact ⟨_, fuel0, h⟩

/-- **C110** the conversions of abcoef.py (C60) with the shipped numbers: `b_to_a` divides by zero for no list of coefficients, and both
conversions are inverse to each other. -/
theorem C110_convert {jv : ℝ → ℝ → ℝ} (hjv : JvClose jv) {k : ℝ} (hk : k ∈ ({27 / 4, 43 / 4} : Set ℝ)) (c : List ℂ) :
    (∃ a, bToA jv c k 2.3 (4 / 7) = .ok a ∧ a.length = c.length) ∧
    (aToB jv c k 2.3 (4 / 7) >>= fun b => bToA jv b k 2.3 (4 / 7)) = .ok c ∧
    (bToA jv c k 2.3 (4 / 7) >>= fun a => aToB jv a k 2.3 (4 / 7)) = .ok c := by
  have h : ∀ m : ℕ, 1 ≤ m → m ≤ c.length → jv (m * (4 / 7)) (k * 2.3) ≠ 0 := fun m hm _ => hjv.ne hm hk
  obtain ⟨a, h1, h2, -⟩ := (C60_values jv c k 2.3 (4 / 7)).2 h
  exact ⟨⟨a, h1, h2⟩, C60_inverse jv c k 2.3 (4 / 7) h⟩

/-- **C110** `SingularKnown` (C74) with the shipped numbers and the Bessel function itself: for every sine series of at most 300 terms the
expected solution exists, takes the datum on the arc, vanishes on both sides, and solves the Helmholtz equation away from the tip. -/
theorem C110_known {n : ℕ} (hn : 300 ≤ n) {k : ℝ} (hk : k ∈ ({27 / 4, 43 / 4} : Set ℝ)) (toDst : ℝ → ℝ) (b : ℕ → ℝ)
    (hb : ∀ th, toDst th = ∑ j ∈ Finset.range 300, b j * sin (((j : ℝ) + 1) * (4 / 7) * (th - π / 4))) :
    ∃ ac, skACoef besselJ n 300 toDst k 2.3 (π / 4) (4 / 7) = .ok ac ∧ ∃ W : ℝ → ℝ → ℝ,
      (∀ r th, skExpectedPolar besselJ ac 300 (fun _ _ => 0) k (π / 4) (4 / 7) r th = .ok (W r th : ℂ)) ∧
      (∀ th, W 2.3 th = toDst th) ∧ (∀ r, W r (π / 4) = 0 ∧ W r (2 * π) = 0) ∧ ∀ r th, 0 < r → HelmholtzAt k W 0 r th := by
  have hpi := pi_pos
  have hk0 : 0 < k := by rcases hk with rfl | rfl <;> norm_num
  obtain ⟨ac, h1, W, h2, h3, h4, h5⟩ := C74_known besselJ hn (k := k) (R := 2.3) (a := π / 4) (nu := 4 / 7) (by linarith)
    (by rw [eq_div_iff (by linarith)]; ring) (fun m hm _ => C110_close.1.ne hm hk) toDst b hb (fun _ _ => 0)
  refine ⟨ac, h1, W, fun r th => ?_, h3, h4, fun r th hr => h5 r th hr.ne' fun m _ _ => C76_bessel (by positivity) (by positivity)⟩
  rw [h2, zero_add]

/-! ## The hypotheses are met -/

/-- the order 106 · 4/7 at the first argument -/
example : (27 / 4 * 2.3 / 2 : ℝ) ^ 2 < ((106 : ℕ) : ℝ) * (4 / 7) + 1 := by norm_num

/-- the exact function -/
example : JvClose besselJ := C110_close.1

/-- the check refuses a zero it cannot exclude: at `q = 2` and order 0 with one term only -/
example : bCheck 2 1 0 1 0 = false := by decide

end Pot
