import Verif.Proofs.RoundedWedge
import Verif.Props.Curves

/-! # Property C96: which nodes are interior, in double-precision arithmetic -/

namespace Pot
open Real Spec

/-! ## Facts that hold for any arithmetic -/

/-- with exact arithmetic the rounded functions are those of the model -/
theorem C96_exact_arithmetic (AD a : ℝ) (N : ℕ) (r : ℝ → ℝ) (i j : ℤ) :
    let F : Fl := ⟨id, hypot, atan2⟩
    F.AD = probAD ∧ F.a = probA ∧
    getCoordF F AD N i j = getCoord AD N i j ∧ getPolarF F AD a N i j = getPolar AD N a i j ∧
    (isInteriorF F AD a r N i j ↔ isInterior AD N a r i j) :=
  ⟨rfl, rfl, rfl, rfl, Iff.rfl⟩

/-- grids are nested without any rounding error: whatever the arithmetic, the node `(2 i, 2 j)` of the grid `2 N` has the same
coordinates as the node `(i, j)` of the grid `N` and is treated alike -/
theorem C96_nested (F : Fl) (AD a : ℝ) (evalR : ℝ → ℝ) (N : ℕ) (i j : ℤ) :
    getCoordF F AD (2 * N) (2 * i) (2 * j) = getCoordF F AD N i j ∧
    getPolarF F AD a (2 * N) (2 * i) (2 * j) = getPolarF F AD a N i j ∧
    (isInteriorF F AD a evalR (2 * N) (2 * i) (2 * j) ↔ isInteriorF F AD a evalR N i j) := by
  have hc : ∀ k : ℤ, coordF F AD (2 * N) (2 * k) = coordF F AD N k := fun k => by
    unfold coordF
    push_cast
    rw [mul_div_mul_left _ _ (two_ne_zero)]
  have h1 : getCoordF F AD (2 * N) (2 * i) (2 * j) = getCoordF F AD N i j := by unfold getCoordF; rw [hc, hc]
  have h2 : getPolarF F AD a (2 * N) (2 * i) (2 * j) = getPolarF F AD a N i j := by unfold getPolarF; rw [h1]
  exact ⟨h1, h2, by unfold isInteriorF; rw [h2]⟩

/-! ## One coordinate of a node -/

/-- the exact coordinate and the computed one -/
structure Close (N : ℕ) (x X : ℝ) : Prop where
  double : IsDouble x
  moderate : Moderate x
  bx : |x| ≤ 3.2
  bX : |X| ≤ π
  err : |x - X| ≤ 1 / 2 ^ 48
  pos : 0 < x ↔ 0 < X
  neg : x < 0 ↔ X < 0
  gap : 0 < x → 1 / 2 ^ 40 ≤ x

theorem coord_close {F : Fl} (h : RoundsToNearest F.rnd) {N : ℕ} (hN : 0 < N) (hN2 : N ≤ 2 ^ 40) {i : ℤ} (h0 : 0 ≤ i) (h1 : i ≤ N) :
    Close N (coordF F F.AD N i) (probAD * (i / N - 1 / 2)) := by
  obtain ⟨c1, c2, c3⟩ := coordF_spec h hN hN2 h0 h1
  have hNr : (0 : ℝ) < N := by exact_mod_cast hN
  have hN2r : (N : ℝ) ≤ 2 ^ 40 := by exact_mod_cast hN2
  have h0r : (0 : ℝ) ≤ i := by exact_mod_cast h0
  have h1r : (i : ℝ) ≤ N := by exact_mod_cast h1
  have hp1 := pi_gt_d2
  have hp2 := pi_lt_d6
  have hd0 : (0 : ℝ) ≤ i / N := by positivity
  have hd1 : (i : ℝ) / N ≤ 1 := by rw [div_le_one hNr]; exact h1r
  set x := coordF F F.AD N i with hx
  rw [show probAD * ((i : ℝ) / N - 1 / 2) = 2 * π * (i / N - 1 / 2) from rfl]
  set X := 2 * π * ((i : ℝ) / N - 1 / 2) with hX
  have bX : |X| ≤ π := by rw [abs_le]; constructor <;> nlinarith
  have ce := abs_le.1 c2
  have bX' := abs_le.1 bX
  have bx : |x| ≤ 3.2 := by rw [abs_le]; norm_num at *; constructor <;> linarith
  by_cases hz : 2 * i = N
  · have hx0 : x = 0 := c1 hz
    have hX0 : X = 0 := by
      have : 2 * (i : ℝ) = N := by exact_mod_cast hz
      have : (i : ℝ) / N = 1 / 2 := by rw [div_eq_div_iff hNr.ne' two_ne_zero]; linarith
      rw [hX, this]; ring
    exact ⟨c3, .inl hx0, bx, bX, c2, by rw [hx0, hX0], by rw [hx0, hX0], fun q => absurd q (by rw [hx0]; exact lt_irrefl _)⟩
  · have hgap : 1 / 2 ^ 39 ≤ |X| := by
      have hne : 2 * i - N ≠ 0 := sub_ne_zero.2 hz
      have hone : (1 : ℝ) ≤ |((2 * i - N : ℤ) : ℝ)| := by exact_mod_cast Int.one_le_abs hne
      have he : X = π * (((2 * i - N : ℤ) : ℝ) / N) := by rw [hX]; push_cast; field_simp
      rw [he, abs_mul, abs_of_pos pi_pos, abs_div, abs_of_pos hNr]
      have : 1 / 2 ^ 40 ≤ |((2 * i - N : ℤ) : ℝ)| / N := by
        rw [div_le_div_iff₀ (by positivity) hNr]; nlinarith
      nlinarith
    have hgap2 : 1 / 2 ^ 40 ≤ |x| := by
      have : |X| ≤ |x - X| + |x| := by
        have := abs_sub_le X x 0
        rw [abs_sub_comm X x, sub_zero, sub_zero] at this; exact this
      norm_num at *; linarith
    refine ⟨c3, .inr ⟨small_le' hgap2 (by norm_num), le_big' bx (by norm_num)⟩, bx, bX, c2, ?_, ?_, fun q => by rwa [abs_of_pos q] at hgap2⟩
    · rcases le_total 0 X with hs | hs
      · rw [abs_of_nonneg hs] at hgap
        constructor <;> intro _ <;> norm_num at * <;> linarith
      · rw [abs_of_nonpos hs] at hgap
        constructor <;> intro _ <;> norm_num at * <;> linarith
    · rcases le_total 0 X with hs | hs
      · rw [abs_of_nonneg hs] at hgap
        constructor <;> intro _ <;> norm_num at * <;> linarith
      · rw [abs_of_nonpos hs] at hgap
        constructor <;> intro _ <;> norm_num at * <;> linarith

/-- accuracy of the coordinates: a node on an axis of the square lies on it exactly, and no coordinate is off by more than `2⁻⁴⁸` -/
theorem C96_coordinates {F : Fl} (h : RoundsToNearest F.rnd) {N : ℕ} (hN : 0 < N) (hN2 : N ≤ 2 ^ 40) {i j : ℤ} (hi : 0 ≤ i ∧ i ≤ N)
    (hj : 0 ≤ j ∧ j ≤ N) :
    |(getCoordF F F.AD N i j).1 - (getCoord probAD N i j).1| ≤ 1 / 2 ^ 48 ∧
    |(getCoordF F F.AD N i j).2 - (getCoord probAD N i j).2| ≤ 1 / 2 ^ 48 ∧
    SignType.sign (getCoordF F F.AD N i j).1 = SignType.sign (getCoord probAD N i j).1 ∧
    SignType.sign (getCoordF F F.AD N i j).2 = SignType.sign (getCoord probAD N i j).2 := by
  have key : ∀ {x X : ℝ}, Close N x X → SignType.sign x = SignType.sign X := fun {x X} c => by
    rcases lt_trichotomy x 0 with q | q | q
    · rw [sign_neg q, sign_neg (c.neg.1 q)]
    · have : X = 0 := le_antisymm (not_lt.1 fun p => absurd (c.pos.2 p) (by rw [q]; exact lt_irrefl _))
        (not_lt.1 fun p => absurd (c.neg.2 p) (by rw [q]; exact lt_irrefl _))
      rw [q, this]
    · rw [sign_pos q, sign_pos (c.pos.1 q)]
  have cx := coord_close h hN hN2 hi.1 hi.2
  have cy := coord_close h hN hN2 hj.1 hj.2
  exact ⟨cx.err, cy.err, key cx, key cy⟩

/-! ## The straight sides -/

/-- the comparisons with the angle in exact arithmetic: not in the open wedge `0 < y < x` -/
theorem wedge_exact {X Y : ℝ} (bX : |X| ≤ π) (bY : |Y| ≤ π) :
    (let p := cartToPolar X Y
     let q := if p.2 < probA / 2 then (p.1, p.2 + 2 * π) else p
     q.2 ≥ probA ∧ q.2 ≤ 2 * π) ↔ ¬ (0 < Y ∧ Y < X) := by
  have hpi := pi_gt_d2
  have hpi2 := pi_lt_d6
  unfold cartToPolar atan2 probA
  dsimp only
  set A := Complex.arg ⟨X, Y⟩ with hA
  have hA1 : A ≤ π := Complex.arg_le_pi _
  have hA2 : -π < A := Complex.neg_pi_lt_arg _
  rcases le_or_gt Y 0 with hY | hY
  · refine ⟨fun _ c => absurd c.1 (by linarith), fun _ => ?_⟩
    by_cases hA0 : A ≤ 0
    · rw [if_pos hA0]; dsimp only; rw [if_neg (by linarith)]; constructor <;> linarith
    · have : A = π := by
        rcases hY.lt_or_eq with hlt | heq
        · exact absurd (Complex.arg_neg_iff.2 hlt).le hA0
        · refine Complex.arg_eq_pi_iff.2 ⟨?_, heq⟩
          by_contra hc
          exact hA0 (Complex.arg_eq_zero_iff.2 ⟨not_lt.1 hc, heq⟩).le
      rw [if_neg hA0]; dsimp only; rw [if_neg (by linarith)]; constructor <;> linarith
  · have hA0 : ¬ A ≤ 0 := by
      intro hc
      rcases hc.lt_or_eq with hlt | heq
      · exact absurd (Complex.arg_neg_iff.1 hlt) (not_lt.2 hY.le)
      · exact absurd (Complex.arg_eq_zero_iff.1 heq).2 hY.ne'
    rw [if_neg hA0]
    dsimp only
    have hXa := abs_le.1 bX
    have hYa := abs_le.1 bY
    rcases le_or_gt X Y with hXY | hXY
    · refine ⟨fun _ c => absurd c.2 (by linarith), fun _ => ?_⟩
      have : π / 4 ≤ A := by
        rcases le_or_gt X 0 with hx | hx
        · by_contra hc
          have : |A| < π / 2 := by rw [abs_of_pos (not_le.1 hA0)]; linarith
          rw [hA, Complex.abs_arg_lt_pi_div_two_iff] at this
          rcases this with h2 | h2
          · exact absurd h2 (not_lt.2 hx)
          · exact absurd (congrArg Complex.im h2) hY.ne'
        · have := (arg_gap hY hx (by linarith) (by linarith)).1 hXY
          linarith
      rw [if_neg (by linarith)]; constructor <;> linarith
    · refine ⟨fun w _ => ?_, fun c => absurd ⟨hY, hXY⟩ c⟩
      have h1 := (arg_gap hY (hY.trans hXY) (by linarith) (by linarith)).2.1 hXY.le
      have h2 : 0 < A := not_le.1 hA0
      split_ifs at w with hc
      · have := w.2; dsimp only at this; linarith
      · have := w.1; dsimp only at this; linarith

/-- the comparisons with the angle that the model makes for a node -/
def inWedge (N : ℕ) (i j : ℤ) : Prop := (getPolar probAD N probA i j).2 ≥ probA ∧ (getPolar probAD N probA i j).2 ≤ 2 * π

theorem inWedge_iff {N : ℕ} (hN : 0 < N) {i j : ℤ} (hi : 0 ≤ i ∧ i ≤ N) (hj : 0 ≤ j ∧ j ≤ N) :
    inWedge N i j ↔ ¬ (0 < (getCoord probAD N i j).2 ∧ (getCoord probAD N i j).2 < (getCoord probAD N i j).1) := by
  have hNr : (0 : ℝ) < N := by exact_mod_cast hN
  have b : ∀ k : ℤ, 0 ≤ k ∧ k ≤ N → |probAD * ((k : ℝ) / N - 1 / 2)| ≤ π := fun k hk => by
    have h0r : (0 : ℝ) ≤ k := by exact_mod_cast hk.1
    have h1r : (k : ℝ) ≤ N := by exact_mod_cast hk.2
    have hd0 : (0 : ℝ) ≤ k / N := by positivity
    have hd1 : (k : ℝ) / N ≤ 1 := by rw [div_le_one hNr]; exact h1r
    have := pi_pos
    unfold probAD
    rw [abs_le]; constructor <;> nlinarith
  exact wedge_exact (b i hi) (b j hj)

section sides
variable {F : Fl} (h : RoundsToNearest F.rnd) (hl : Libm F.hypot F.atan2) {N : ℕ} (hN : 0 < N) (hN2 : N ≤ 2 ^ 40) {i j : ℤ}
  (hi : 0 ≤ i ∧ i ≤ N) (hj : 0 ≤ j ∧ j ≤ N)
include h hN hN2 hi hj

theorem gap_xy (hne : i ≠ j) : 1 / 2 ^ 40 ≤ |coordF F F.AD N i - coordF F F.AD N j| ∧
    (coordF F F.AD N j < coordF F F.AD N i ↔ probAD * ((j : ℝ) / N - 1 / 2) < probAD * (i / N - 1 / 2)) := by
  have cx := (abs_le.1 (coord_close h hN hN2 hi.1 hi.2).err)
  have cy := (abs_le.1 (coord_close h hN hN2 hj.1 hj.2).err)
  have hNr : (0 : ℝ) < N := by exact_mod_cast hN
  have hN2r : (N : ℝ) ≤ 2 ^ 40 := by exact_mod_cast hN2
  have hp1 := pi_gt_d2
  set X := probAD * ((i : ℝ) / N - 1 / 2) with hX
  set Y := probAD * ((j : ℝ) / N - 1 / 2) with hY
  have hgap : 1 / 2 ^ 38 ≤ |X - Y| := by
    have hone : (1 : ℝ) ≤ |((i - j : ℤ) : ℝ)| := by exact_mod_cast Int.one_le_abs (sub_ne_zero.2 hne)
    have he : X - Y = 2 * π * (((i - j : ℤ) : ℝ) / N) := by rw [hX, hY]; unfold probAD; push_cast; field_simp; ring
    rw [he, abs_mul, abs_of_pos (by positivity : 0 < 2 * π), abs_div, abs_of_pos hNr]
    have : 1 / 2 ^ 40 ≤ |((i - j : ℤ) : ℝ)| / N := by
      rw [div_le_div_iff₀ (by positivity) hNr]; nlinarith
    nlinarith
  rcases le_total 0 (X - Y) with hs | hs
  · rw [abs_of_nonneg hs] at hgap
    have : 1 / 2 ^ 40 ≤ coordF F F.AD N i - coordF F F.AD N j := by norm_num at *; linarith
    have hp : (0 : ℝ) < 1 / 2 ^ 40 := by positivity
    have hp' : (0 : ℝ) < 1 / 2 ^ 38 := by positivity
    exact ⟨this.trans (le_abs_self _), ⟨fun _ => by linarith, fun _ => by linarith⟩⟩
  · rw [abs_of_nonpos hs] at hgap
    have : 1 / 2 ^ 40 ≤ -(coordF F F.AD N i - coordF F F.AD N j) := by norm_num at *; linarith
    have hp : (0 : ℝ) < 1 / 2 ^ 40 := by positivity
    have hp' : (0 : ℝ) < 1 / 2 ^ 38 := by positivity
    exact ⟨this.trans (neg_le_abs _), ⟨fun _ => by linarith, fun _ => by linarith⟩⟩

include hl in
theorem wedge_node :
    (¬ (0 < coordF F F.AD N i ∧ coordF F F.AD N i = coordF F F.AD N j) →
      (inWedgeF F F.AD F.a N i j ↔ ¬ (0 < coordF F F.AD N j ∧ coordF F F.AD N j < coordF F F.AD N i))) ∧
    (0 < coordF F F.AD N i → coordF F F.AD N i = coordF F F.AD N j →
      (inWedgeF F F.AD F.a N i j ↔ F.a ≤ F.atan2 (coordF F F.AD N j) (coordF F F.AD N i))) := by
  have cx := coord_close h hN hN2 hi.1 hi.2
  have cy := coord_close h hN hN2 hj.1 hj.2
  have := wedgeF_iff h hl cx.double cy.double cx.moderate cy.moderate cx.bx cy.bx cy.gap fun _ _ hne =>
    (gap_xy h hN hN2 hi hj (fun e => hne (by rw [e]))).1
  unfold wedgeF at this
  unfold inWedgeF
  rwa [getPolarF_snd]

include hl in
/-- For every node that is not on the side `θ = a` the comparisons with the angle have the right outcome: only the nodes of the open
wedge `0 < y < x` fail them. -/
theorem C96_off_diagonal (hd : i = j → 2 * i ≤ N) :
    (inWedgeF F F.AD F.a N i j ↔
      ¬ (0 < (getCoord probAD N i j).2 ∧ (getCoord probAD N i j).2 < (getCoord probAD N i j).1)) ∧
    (inWedgeF F F.AD F.a N i j ↔ inWedge N i j) := by
  suffices hs : inWedgeF F F.AD F.a N i j ↔
      ¬ (0 < (getCoord probAD N i j).2 ∧ (getCoord probAD N i j).2 < (getCoord probAD N i j).1) from
    ⟨hs, hs.trans (inWedge_iff hN hi hj).symm⟩
  have cx := coord_close h hN hN2 hi.1 hi.2
  have cy := coord_close h hN hN2 hj.1 hj.2
  obtain ⟨w, -⟩ := wedge_node h hl hN hN2 hi hj
  by_cases hij : i = j
  · have hpos : ¬ 0 < coordF F F.AD N i := by
      rw [cx.pos]
      have hNr : (0 : ℝ) < N := by exact_mod_cast hN
      have h1 : 2 * (i : ℝ) ≤ N := by exact_mod_cast hd hij
      have : (i : ℝ) / N ≤ 1 / 2 := by rw [div_le_div_iff₀ hNr two_pos]; linarith
      have := pi_pos
      unfold probAD
      nlinarith
    rw [w fun c => hpos c.1]
    subst hij
    exact ⟨fun _ c => lt_irrefl _ c.2, fun _ c => lt_irrefl _ c.2⟩
  · obtain ⟨g1, g2⟩ := gap_xy h hN hN2 hi hj hij
    rw [w ?_, g2, cy.pos]
    · rfl
    · rintro ⟨-, hc⟩
      rw [hc, sub_self, abs_zero] at g1
      exact absurd g1 (not_le.2 (by positivity))

include hl in
/-- A node on the side `θ = a`, which is part of the closed domain, is kept if and only if the library returns at least `np.pi / 4`
for the argument of a point with equal positive coordinates; an error of one unit in the last place there removes all of them. -/
theorem C96_diagonal (hij : i = j) (hpos : N < 2 * i) :
    inWedge N i j ∧
    (inWedgeF F F.AD F.a N i j ↔ F.a ≤ F.atan2 (coordF F F.AD N i) (coordF F F.AD N i)) := by
  subst hij
  refine ⟨(inWedge_iff hN hi hi).2 fun c => lt_irrefl _ c.2, (wedge_node h hl hN hN2 hi hi).2 ?_ rfl⟩
  rw [(coord_close h hN hN2 hi.1 hi.2).pos]
  have hNr : (0 : ℝ) < N := by exact_mod_cast hN
  have h1 : (N : ℝ) < 2 * i := by exact_mod_cast hpos
  have : 1 / 2 < (i : ℝ) / N := by rw [div_lt_div_iff₀ two_pos hNr]; linarith
  have := pi_pos
  unfold probAD
  nlinarith

/-- the library is exact where it matters: the argument of a point with equal positive coordinates is not below `np.pi / 4` -/
def DiagExact (F : Fl) : Prop := ∀ x, IsDouble x → Moderate x → 0 < x → F.a ≤ F.atan2 x x

include hl in
/-- The comparisons with the angle have the right outcome for every node. -/
theorem C96_sides (hd : DiagExact F) :
    (inWedgeF F F.AD F.a N i j ↔
      ¬ (0 < (getCoord probAD N i j).2 ∧ (getCoord probAD N i j).2 < (getCoord probAD N i j).1)) ∧
    (inWedgeF F F.AD F.a N i j ↔ inWedge N i j) := by
  by_cases hc : i = j ∧ N < 2 * i
  · obtain ⟨w1, w2⟩ := C96_diagonal h hl hN hN2 hi hj hc.1 hc.2
    have cx := coord_close h hN hN2 hi.1 hi.2
    have hp : 0 < coordF F F.AD N i := by
      rw [cx.pos]
      have hNr : (0 : ℝ) < N := by exact_mod_cast hN
      have h1 : (N : ℝ) < 2 * i := by exact_mod_cast hc.2
      have : 1 / 2 < (i : ℝ) / N := by rw [div_lt_div_iff₀ two_pos hNr]; linarith
      have := pi_pos
      unfold probAD
      nlinarith
    have w3 := w2.2 (hd _ cx.double cx.moderate hp)
    exact ⟨⟨fun _ => (inWedge_iff hN hi hj).1 w1, fun _ => w3⟩, fun _ => w1, fun _ => w3⟩
  · exact C96_off_diagonal h hl hN hN2 hi hj fun e => not_lt.1 fun q => hc ⟨e, q⟩

end sides

/-! ## The outer boundary -/

theorem sqrt_close {x y X Y δ : ℝ} (hx : |x - X| ≤ δ) (hy : |y - Y| ≤ δ) :
    |√(x ^ 2 + y ^ 2) - √(X ^ 2 + Y ^ 2)| ≤ 2 * δ := by
  rw [← norm_mk, ← norm_mk]
  refine (abs_norm_sub_norm_le _ _).trans ?_
  refine (Complex.norm_le_abs_re_add_abs_im _).trans ?_
  have h1 : |((⟨x, y⟩ : ℂ) - ⟨X, Y⟩).re| ≤ δ := hx
  have h2 : |((⟨x, y⟩ : ℂ) - ⟨X, Y⟩).im| ≤ δ := hy
  linarith

/-- arguments of close points in the same half plane -/
theorem arg_close {x y X Y δ : ℝ} (hδ : 0 ≤ δ) (hδ2 : δ ≤ 0.01) (hx : |x - X| ≤ δ) (hy : |y - Y| ≤ δ) (hs : y < 0 ↔ Y < 0)
    (hρ : 1 ≤ √(X ^ 2 + Y ^ 2)) : |Complex.arg ⟨x, y⟩ - Complex.arg ⟨X, Y⟩| ≤ 3 * δ := by
  have hc := sqrt_close hx hy
  set ρ := √(X ^ 2 + Y ^ 2) with hρd
  set ρ' := √(x ^ 2 + y ^ 2) with hρ'd
  have hρ' : 0.9 ≤ ρ' := by have := abs_le.1 hc; linarith
  have hz : (⟨x, y⟩ : ℂ) ≠ 0 := by
    intro h0; have := norm_mk x y; rw [h0, norm_zero] at this; rw [← hρ'd] at this; linarith
  have hZ : (⟨X, Y⟩ : ℂ) ≠ 0 := by
    intro h0; have := norm_mk X Y; rw [h0, norm_zero] at this; rw [← hρd] at this; linarith
  have c1 : cos (Complex.arg ⟨x, y⟩) * ρ' = x := by
    rw [Complex.cos_arg hz, norm_mk, ← hρ'd]; exact div_mul_cancel₀ _ (by linarith)
  have s1 : sin (Complex.arg ⟨x, y⟩) * ρ' = y := by
    rw [Complex.sin_arg, norm_mk, ← hρ'd]; exact div_mul_cancel₀ _ (by linarith)
  have c2 : cos (Complex.arg ⟨X, Y⟩) * ρ = X := by
    rw [Complex.cos_arg hZ, norm_mk, ← hρd]; exact div_mul_cancel₀ _ (by linarith)
  have s2 : sin (Complex.arg ⟨X, Y⟩) * ρ = Y := by
    rw [Complex.sin_arg, norm_mk, ← hρd]; exact div_mul_cancel₀ _ (by linarith)
  have hr1 : -π < Complex.arg ⟨x, y⟩ := Complex.neg_pi_lt_arg _
  have hr2 : Complex.arg ⟨x, y⟩ ≤ π := Complex.arg_le_pi _
  have hr3 : -π < Complex.arg ⟨X, Y⟩ := Complex.neg_pi_lt_arg _
  have hr4 : Complex.arg ⟨X, Y⟩ ≤ π := Complex.arg_le_pi _
  have hΔ : |Complex.arg ⟨x, y⟩ - Complex.arg ⟨X, Y⟩| ≤ π := by
    rw [abs_le]
    by_cases hn : y < 0
    · have h1 := Complex.arg_neg_iff (z := ⟨x, y⟩) |>.2 hn
      have h2 := Complex.arg_neg_iff (z := ⟨X, Y⟩) |>.2 (hs.1 hn)
      constructor <;> linarith
    · have h1 := Complex.arg_nonneg_iff (z := ⟨x, y⟩) |>.2 (not_lt.1 hn)
      have h2 := Complex.arg_nonneg_iff (z := ⟨X, Y⟩) |>.2 (not_lt.1 fun q => hn (hs.2 q))
      constructor <;> linarith
  set A := Complex.arg ⟨x, y⟩
  set B := Complex.arg ⟨X, Y⟩
  have hcos : cos (A - B) = 1 - 2 * sin ((A - B) / 2) ^ 2 := by
    have := cos_two_mul ((A - B) / 2)
    rw [show 2 * ((A - B) / 2) = A - B by ring] at this
    rw [this, cos_sq']; ring
  rw [cos_sub] at hcos
  have hD : 4 * ρ * ρ' * sin ((A - B) / 2) ^ 2 ≤ 2 * δ ^ 2 := by
    have e1 : (x - X) ^ 2 + (y - Y) ^ 2 = (ρ' - ρ) ^ 2 + 4 * ρ * ρ' * sin ((A - B) / 2) ^ 2 := by
      have p1 := sin_sq_add_cos_sq A
      have p2 := sin_sq_add_cos_sq B
      rw [← c1, ← s1, ← c2, ← s2]
      linear_combination (ρ' ^ 2) * p1 + ρ ^ 2 * p2 - 2 * ρ * ρ' * hcos
    have e2 : (x - X) ^ 2 ≤ δ ^ 2 := sq_le_sq' (abs_le.1 hx).1 (abs_le.1 hx).2
    have e3 : (y - Y) ^ 2 ≤ δ ^ 2 := sq_le_sq' (abs_le.1 hy).1 (abs_le.1 hy).2
    nlinarith [sq_nonneg (ρ' - ρ)]
  have hsin : |sin ((A - B) / 2)| ≤ 0.8 * δ := by
    refine abs_le_of_sq_le_sq ?_ (by positivity)
    have h1 : 0.9 ≤ ρ * ρ' := by nlinarith
    have h2 := sq_nonneg (sin ((A - B) / 2))
    have h3 : 0.9 * sin ((A - B) / 2) ^ 2 ≤ ρ * ρ' * sin ((A - B) / 2) ^ 2 := mul_le_mul_of_nonneg_right h1 h2
    nlinarith
  have hlow := mul_abs_le_abs_sin (x := (A - B) / 2) (by rw [abs_div, abs_two]; linarith)
  rw [abs_div, abs_two, div_mul_div_comm, div_le_iff₀ (by positivity)] at hlow
  have hp := pi_lt_d2
  have := pi_pos
  have := abs_nonneg (sin ((A - B) / 2))
  nlinarith

section interior
variable {F : Fl} (h : RoundsToNearest F.rnd) (hl : Libm F.hypot F.atan2) {N : ℕ} (hN : 0 < N) (hN2 : N ≤ 2 ^ 40) {i j : ℤ}
  (hi : 0 ≤ i ∧ i ≤ N) (hj : 0 ≤ j ∧ j ≤ N)
include h hl hN hN2 hi hj

/-- the accuracy of the polar coordinates away from the ray where the angle jumps -/
theorem polar_wide :
    |(getPolarF F F.AD F.a N i j).1 - (getPolar probAD N probA i j).1| ≤ 1 / 2 ^ 46 ∧
    ((getPolar probAD N probA i j).2 ≥ 0.41 ∧ (getPolar probAD N probA i j).2 ≤ 6.65 → 1 ≤ (getPolar probAD N probA i j).1 →
      |(getPolarF F F.AD F.a N i j).2 - (getPolar probAD N probA i j).2| ≤ 1 / 2 ^ 44) := by
  have cx := coord_close h hN hN2 hi.1 hi.2
  have cy := coord_close h hN hN2 hj.1 hj.2
  have hρ := hl.hypot _ _ cx.double cy.double cx.moderate cy.moderate
  have hT := hl.atan2 _ _ cx.double cy.double cx.moderate cy.moderate
  rw [getPolarF_fst, getPolarF_snd]
  have e1 : (getPolar probAD N probA i j).1 = √((probAD * ((i : ℝ) / N - 1 / 2)) ^ 2 + (probAD * ((j : ℝ) / N - 1 / 2)) ^ 2) := by
    rw [getPolar_eq]
    dsimp only
    split_ifs <;> exact cartToPolar_fst _ _
  have e2 : (getPolar probAD N probA i j).2 = (if (cartToPolar (probAD * ((i : ℝ) / N - 1 / 2)) (probAD * ((j : ℝ) / N - 1 / 2))).2 < probA / 2
      then (cartToPolar (probAD * ((i : ℝ) / N - 1 / 2)) (probAD * ((j : ℝ) / N - 1 / 2))).2 + 2 * π
      else (cartToPolar (probAD * ((i : ℝ) / N - 1 / 2)) (probAD * ((j : ℝ) / N - 1 / 2))).2) := by
    rw [getPolar_eq]
    exact apply_ite Prod.snd _ _ _
  rw [e1, e2]
  clear e1 e2
  set x := coordF F F.AD N i
  set y := coordF F F.AD N j
  set X := probAD * ((i : ℝ) / N - 1 / 2)
  set Y := probAD * ((j : ℝ) / N - 1 / 2)
  have hc := sqrt_close cx.err cy.err
  have hpi := pi_gt_d2
  have hpi2 := pi_lt_d6
  constructor
  · have hb : √(x ^ 2 + y ^ 2) ≤ 4.6 := by
      rw [sqrt_le_left (by norm_num)]
      have := sq_le_sq' (abs_le.1 cx.bx).1 (abs_le.1 cx.bx).2
      have := sq_le_sq' (abs_le.1 cy.bx).1 (abs_le.1 cy.bx).2
      norm_num at *; linarith
    have h1 : |F.hypot x y - √(x ^ 2 + y ^ 2)| ≤ 1 / 2 ^ 50 * 4.6 := hρ.trans (mul_le_mul_of_nonneg_left hb (by positivity))
    rw [abs_le] at *
    norm_num at *
    constructor <;> linarith
  · rintro ⟨w1, w2⟩ hone
    have hAA := arg_close (by positivity) (by norm_num) cx.err cy.err cy.neg hone
    unfold cartToPolar atan2 probA at w1 w2 ⊢
    dsimp only at w1 w2 ⊢
    set A' := Complex.arg ⟨x, y⟩ with hA'
    set A := Complex.arg ⟨X, Y⟩ with hA
    set T := F.atan2 y x with hTd
    have hA1 : A ≤ π := Complex.arg_le_pi _
    have hA2 : -π < A := Complex.neg_pi_lt_arg _
    have hA'1 : A' ≤ π := Complex.arg_le_pi _
    have hA'2 : -π < A' := Complex.neg_pi_lt_arg _
    have hT3 : |T - A'| ≤ 1 / 2 ^ 50 * 3.1416 :=
      hT.trans (mul_le_mul_of_nonneg_left (abs_le.2 ⟨by linarith, by linarith⟩) (by positivity))
    have sgn : ∀ u v : ℝ, Complex.arg ⟨u, v⟩ ≤ 0 ↔ v < 0 ∨ v = 0 ∧ ¬ u < 0 := fun u v => by
      constructor
      · intro q
        rcases q.lt_or_eq with q | q
        · exact .inl (Complex.arg_neg_iff.1 q)
        · exact .inr ⟨(Complex.arg_eq_zero_iff.1 q).2, not_lt.2 (Complex.arg_eq_zero_iff.1 q).1⟩
      · rintro (q | ⟨q, q'⟩)
        · exact (Complex.arg_neg_iff.2 q).le
        · exact (Complex.arg_eq_zero_iff.2 ⟨not_lt.1 q', q⟩).le
    have hyz : y = 0 ↔ Y = 0 := by
      have p := cy.pos
      have n := cy.neg
      constructor <;> intro q <;> refine le_antisymm (not_lt.1 ?_) (not_lt.1 ?_)
      · rw [← p, q]; exact lt_irrefl _
      · rw [← n, q]; exact lt_irrefl _
      · rw [p, q]; exact lt_irrefl _
      · rw [n, q]; exact lt_irrefl _
    have hsign : A ≤ 0 ↔ A' ≤ 0 := by rw [hA, hA', sgn, sgn, cy.neg, cx.neg, hyz]
    have hT4 := abs_le.1 hT
    have hT5 := abs_le.1 hT3
    have hAA' := abs_le.1 hAA
    by_cases hn : A ≤ 0
    · have hn' : A' ≤ 0 := hsign.1 hn
      have hTn : T ≤ 0 := by rw [abs_of_nonpos hn'] at hT4; nlinarith [hT4.2]
      obtain ⟨f1, f2, f3⟩ := angleF_nonpos h hTn (by norm_num at *; linarith)
      rw [f1, if_pos hn]
      dsimp only
      rw [if_neg (by linarith)]
      have t1 := abs_le.1 (twoPi_err h)
      obtain ⟨b1, b2⟩ := twoPi_bounds h
      have hp : 0 < T + F.twoPi := by norm_num at *; linarith
      have hr := abs_le.1 (Rnd.rel' h (x := T + F.twoPi) (lo := 3) (hi := 6.3) (by rw [abs_of_pos hp]; norm_num at *; linarith)
        (by rw [abs_of_pos hp]; linarith) (by norm_num) (by norm_num))
      rw [abs_le]
      norm_num at *
      constructor <;> linarith
    · rw [if_neg hn] at w1 w2 ⊢
      dsimp only at w1 w2 ⊢
      by_cases hsh : A < π / 4 / 2
      · rw [if_pos hsh] at w2 ⊢
        have hn' : 0 < A' := not_le.1 fun q => hn (hsign.2 q)
        have hTp : ¬ T ≤ 0 := not_le.2 (by rw [abs_of_pos hn'] at hT4; nlinarith [hT4.1])
        obtain ⟨b1, b2⟩ := twoPi_bounds h
        obtain ⟨c1, c2⟩ := a_bounds h
        have hh := abs_le.1 (Rnd.rel' h (x := F.a / 2) (lo := 0.3) (hi := 0.4) (by rw [abs_of_pos (by linarith)]; linarith)
          (by rw [abs_of_pos (by linarith)]; linarith) (by norm_num) (by norm_num))
        have e53 : (1 : ℝ) / 2 ^ 53 * 0.4 ≤ 0.0005 := by norm_num
        have e48 : 3 * ((1 : ℝ) / 2 ^ 48) ≤ 0.0005 := by norm_num
        have e50 : (1 : ℝ) / 2 ^ 50 * 3.1416 ≤ 0.0005 := by norm_num
        have hT6 : T ≤ 0.38 := by linarith
        have t1 := abs_le.1 (twoPi_err h)
        have hp : 0 < T + F.twoPi := by linarith [not_le.1 hTp]
        have hr := abs_le.1 (Rnd.rel' h (x := T + F.twoPi) (lo := 3) (hi := 6.7) (by rw [abs_of_pos hp]; linarith [not_le.1 hTp])
          (by rw [abs_of_pos hp]; linarith) (by norm_num) (by norm_num))
        unfold angleF
        rw [if_neg hTp, if_pos (by linarith), abs_le]
        norm_num at t1 hr hAA' hT5 ⊢
        constructor <;> linarith
      · rw [if_neg hsh] at w1 ⊢
        rw [angleF_pos h (by norm_num at *; linarith), abs_le]
        norm_num at *
        constructor <;> linarith

/-- accuracy of the polar coordinates: the radius to `2⁻⁴⁶`, the angle of a node of the domain at distance 1 or more from the tip to
`2⁻⁴⁴` -/
theorem C96_polar :
    |(getPolarF F F.AD F.a N i j).1 - (getPolar probAD N probA i j).1| ≤ 1 / 2 ^ 46 ∧
    (inWedge N i j → 1 ≤ (getPolar probAD N probA i j).1 →
      |(getPolarF F F.AD F.a N i j).2 - (getPolar probAD N probA i j).2| ≤ 1 / 2 ^ 44) := by
  obtain ⟨p1, p2⟩ := polar_wide h hl hN hN2 hi hj
  refine ⟨p1, fun w => p2 ⟨?_, ?_⟩⟩
  · have := w.1; have := pi_gt_d2; unfold probA at *; norm_num at *; linarith
  · have := w.2; have := pi_lt_d2; norm_num at *; linarith

/-- The interior test of a node that is not within `η + 2⁻⁴⁴` of the curve, where `η` is the accuracy with which the machine evaluates
the radius function: it has the same outcome as in exact arithmetic. -/
theorem C96_interior (hd : DiagExact F) {name : String} {r : ℝ → ℝ} (hb : chooseBoundary name = .ok r) {evalR : ℝ → ℝ} {η : ℝ}
    (hη1 : η ≤ 1 / 2) (hη : ∀ t, 0.78 ≤ t → t ≤ 6.3 → |evalR t - r t| ≤ η)
    (hband : inWedge N i j → η + 1 / 2 ^ 44 < |(getPolar probAD N probA i j).1 - r (getPolar probAD N probA i j).2|) :
    isInteriorF F F.AD F.a evalR N i j ↔ isInterior probAD N probA r i j := by
  have tame := chooseBoundary_tame hb
  have hw := (C96_sides h hl hN hN2 hi hj hd).2
  obtain ⟨p1, p2⟩ := C96_polar h hl hN hN2 hi hj
  have hpi := pi_gt_d2
  have hpi2 := pi_lt_d6
  by_cases hin : inWedge N i j
  · have hinF := hw.2 hin
    suffices hs : (getPolarF F F.AD F.a N i j).1 ≤ evalR (getPolarF F F.AD F.a N i j).2 ↔
        (getPolar probAD N probA i j).1 ≤ r (getPolar probAD N probA i j).2 from
      ⟨fun q => ⟨hs.1 q.1, hin⟩, fun q => ⟨hs.2 q.1, hinF⟩⟩
    have hin' := hin
    have hb' := hband hin
    unfold inWedge at hin'
    unfold inWedgeF at hinF
    obtain ⟨a1, a2⟩ := a_bounds h
    obtain ⟨b1, b2⟩ := twoPi_bounds h
    have p2' := p2 hin
    set ρ := (getPolar probAD N probA i j).1
    set θ := (getPolar probAD N probA i j).2
    set ρF := (getPolarF F F.AD F.a N i j).1
    set θF := (getPolarF F F.AD F.a N i j).2
    have hθ1 : π / 4 ≤ θ := hin'.1
    have hη' := abs_le.1 (hη θF (by linarith [hinF.1]) (by linarith [hinF.2]))
    have p1' := abs_le.1 p1
    have l1 := tame.lo θ (by linarith) (by linarith [hin'.2])
    have l2 := tame.lo θF (by linarith [hinF.1]) (by linarith [hinF.2])
    rcases lt_or_ge ρ 1 with hρ | hρ
    · exact ⟨fun _ => by linarith, fun _ => by norm_num at *; linarith⟩
    · have hang := p2' hρ
      have hlip : |r θF - r θ| ≤ 0.29 * |θF - θ| := by
        have hconv : Convex ℝ (Set.Icc (π / 4 / 2) (2 * π + π / 4 / 2)) := convex_Icc _ _
        have := hconv.norm_image_sub_le_of_norm_deriv_le (f := r) (C := 0.29) (x := θ) (y := θF)
          (fun t _ => (tame.smooth.differentiable (by norm_num)) t) (fun t ht => tame.d1 t ht.1 ht.2)
          ⟨by linarith, by linarith [hin'.2]⟩ ⟨by linarith [hinF.1], by linarith [hinF.2]⟩
        exact this
      have hlip' := abs_le.1 (hlip.trans (mul_le_mul_of_nonneg_left hang (by norm_num)))
      rcases lt_abs.1 hb' with hc | hc
      · exact ⟨fun _ => by norm_num at *; linarith, fun _ => by norm_num at *; linarith⟩
      · exact ⟨fun _ => by norm_num at *; linarith, fun _ => by norm_num at *; linarith⟩
  · exact ⟨fun q => absurd (hw.1 q.2) hin, fun q => absurd q.2 hin⟩

end interior

/-! ## The node sets -/

theorem constructGrids_congr (iter : Iter) (hit : IsIter iter) (N order : ℕ) {p q : Node → Prop}
    (hpq : ∀ nd ∈ square 1 N, (p nd ↔ q nd)) : constructGrids iter N order p = constructGrids iter N order q := by
  classical
  have hM : (iter 0 (square 1 N)).foldl (init := (∅ : Finset Node)) (fun s nd => if p nd then insert nd s else s)
      = (iter 0 (square 1 N)).foldl (init := ∅) (fun s nd => if q nd then insert nd s else s) := by
    refine List.foldl_ext _ _ _ fun s nd hnd => ?_
    have := hpq nd (((hit 0 (square 1 N)).2 nd).1 hnd)
    by_cases hp : p nd
    · rw [if_pos hp, if_pos (this.1 hp)]
    · rw [if_neg hp, if_neg fun c => hp (this.2 c)]
  unfold constructGrids
  dsimp only
  rw [hM]

theorem mem_M0 {N : ℕ} {nd : Node} (h : nd ∈ square 1 N) : 0 < N ∧ (0 ≤ nd.1 ∧ nd.1 ≤ N) ∧ (0 ≤ nd.2 ∧ nd.2 ≤ N) := by
  unfold square at h
  rw [Finset.mem_product, Finset.mem_Ico, Finset.mem_Ico] at h
  omega

section grids
variable {F : Fl} (h : RoundsToNearest F.rnd) (hl : Libm F.hypot F.atan2) (hd : DiagExact F) {iter : Iter} (hit : IsIter iter)
  {N : ℕ} (hN2 : N ≤ 2 ^ 40) (order : ℕ) {name : String} {r : ℝ → ℝ} (hb : chooseBoundary name = .ok r) {evalR : ℝ → ℝ} {η : ℝ}
  (hη1 : η ≤ 1 / 2) (hη : ∀ t, 0.78 ≤ t → t ≤ 6.3 → |evalR t - r t| ≤ η)
include h hl hd hit hN2 hb hη1 hη

/-- The nodes on which the sets of the program and those of exact arithmetic differ lie within `η + 2⁻⁴⁴` of the outer curve (measured
along the ray from the tip), at an angle of the domain. -/
theorem C96_difference (nd : Node)
    (hne : ¬ (nd ∈ (constructGrids iter N order fun q => isInteriorF F F.AD F.a evalR N q.1 q.2).Mplus ↔
      nd ∈ (constructGrids iter N order fun q => isInterior probAD N probA r q.1 q.2).Mplus)) :
    inWedge N nd.1 nd.2 ∧
      |(getPolar probAD N probA nd.1 nd.2).1 - r (getPolar probAD N probA nd.1 nd.2).2| ≤ η + 1 / 2 ^ 44 := by
  rw [(C09_partition hit N order _).2.2.2.2.1 nd, (C09_partition hit N order _).2.2.2.2.1 nd] at hne
  have hM : nd ∈ square 1 N := by
    by_contra hc
    exact hne ⟨fun q => absurd q.1 hc, fun q => absurd q.1 hc⟩
  obtain ⟨hN, hi, hj⟩ := mem_M0 hM
  by_contra hc
  refine hne (and_congr Iff.rfl (C96_interior h hl hN hN2 hi hj hd hb hη1 hη fun w => ?_))
  by_contra hlt
  exact hc ⟨w, not_lt.1 hlt⟩

/-- If no node is that close to the curve, the sets are those of exact arithmetic. -/
theorem C96_grids
    (hband : ∀ nd ∈ square 1 N, inWedge N nd.1 nd.2 →
      η + 1 / 2 ^ 44 < |(getPolar probAD N probA nd.1 nd.2).1 - r (getPolar probAD N probA nd.1 nd.2).2|) (b : Brentq) :
    constructGrids iter N order (fun q => isInteriorF F F.AD F.a evalR N q.1 q.2)
      = constructGrids iter N order (mkEnv b N probAD probA probR r).interior :=
  constructGrids_congr iter hit N order fun nd hnd => by
    obtain ⟨hN, hi, hj⟩ := mem_M0 hnd
    exact C96_interior h hl hN hN2 hi hj hd hb hη1 hη (hband nd hnd)

end grids

/-! ## The circular arc -/

/-- no node is close to the arc if no sum of two squares is close to `2.3² N² / π²` -/
theorem arc_band {N : ℕ} (hN : N ≤ 1024) {k : ℤ} (h1 : (k + 1 / 1000) * π ^ 2 < 5.29 * N ^ 2)
    (h2 : 5.29 * N ^ 2 < (k + 1 - 1 / 1000) * π ^ 2) {nd : Node} (hnd : nd ∈ square 1 N) {η : ℝ} (hη : η ≤ 1 / 2 ^ 50) :
    η + 1 / 2 ^ 44 < |(getPolar probAD N probA nd.1 nd.2).1 - arcR probR (getPolar probAD N probA nd.1 nd.2).2| := by
  obtain ⟨hN0, -, -⟩ := mem_M0 hnd
  have hNr : (0 : ℝ) < N := by exact_mod_cast hN0
  have hNl : (N : ℝ) ≤ 1024 := by exact_mod_cast hN
  have hpi := pi_gt_d2
  set ρ := (getPolar probAD N probA nd.1 nd.2).1 with hρ
  set n : ℤ := (2 * nd.1 - N) ^ 2 + (2 * nd.2 - N) ^ 2 with hn
  have hρ2 : N ^ 2 * ρ ^ 2 = n * π ^ 2 := by
    have e : ρ = √((probAD * ((nd.1 : ℝ) / N - 1 / 2)) ^ 2 + (probAD * ((nd.2 : ℝ) / N - 1 / 2)) ^ 2) := by
      rw [hρ, getPolar_eq]
      dsimp only
      split_ifs <;> exact cartToPolar_fst _ _
    rw [e, sq_sqrt (by positivity), hn]
    unfold probAD
    push_cast
    field_simp
  by_contra hc
  rw [not_lt] at hc
  have hc' : |ρ - 2.3| ≤ 1 / 2 ^ 43 := by
    have : arcR probR (getPolar probAD N probA nd.1 nd.2).2 = 2.3 := by unfold arcR probR; norm_num
    rw [this] at hc
    norm_num at *; linarith
  have hc2 := abs_le.1 hc'
  have hsq : |ρ ^ 2 - 5.29| ≤ 1 / 2 ^ 40 := by
    rw [show ρ ^ 2 - 5.29 = (ρ - 2.3) * (ρ + 2.3) by ring, abs_mul]
    have : |ρ + 2.3| ≤ 5 := by rw [abs_le]; norm_num at *; constructor <;> linarith
    have := mul_le_mul hc' this (abs_nonneg _) (by positivity)
    norm_num at *; linarith
  have hsq' := abs_le.1 hsq
  have hN2 : (N : ℝ) ^ 2 ≤ 1024 ^ 2 := pow_le_pow_left₀ hNr.le hNl 2
  have hN2p : (0 : ℝ) < N ^ 2 := by positivity
  have hpi3 : 9 < π ^ 2 := by nlinarith
  rcases le_or_gt n k with hle | hgt
  · have hler : (n : ℝ) ≤ k := by exact_mod_cast hle
    have : (n : ℝ) * π ^ 2 ≤ k * π ^ 2 := mul_le_mul_of_nonneg_right hler (by positivity)
    have h3 : N ^ 2 * (5.29 - ρ ^ 2) ≤ 1024 ^ 2 * (1 / 2 ^ 40) :=
      (mul_le_mul_of_nonneg_left (by linarith : 5.29 - ρ ^ 2 ≤ 1 / 2 ^ 40) hN2p.le).trans
        (mul_le_mul_of_nonneg_right hN2 (by positivity))
    norm_num at h1 h3
    nlinarith
  · have hler : (k : ℝ) + 1 ≤ n := by exact_mod_cast hgt
    have : ((k : ℝ) + 1) * π ^ 2 ≤ n * π ^ 2 := mul_le_mul_of_nonneg_right hler (by positivity)
    have h3 : N ^ 2 * (ρ ^ 2 - 5.29) ≤ 1024 ^ 2 * (1 / 2 ^ 40) :=
      (mul_le_mul_of_nonneg_left (by linarith : ρ ^ 2 - 5.29 ≤ 1 / 2 ^ 40) hN2p.le).trans
        (mul_le_mul_of_nonneg_right hN2 (by positivity))
    norm_num at h2 h3
    nlinarith

/-- On the circular arc, for each of the grids of a convergence run from 16 to 1024, the program's node sets in double precision are those
of exact arithmetic.  `F.rnd 2.3` is the literal `R = 2.3` (problems/problem.py:12), which `eval_r` returns for every angle. -/
theorem C96_arc {F : Fl} (h : RoundsToNearest F.rnd) (hl : Libm F.hypot F.atan2) (hd : DiagExact F) {iter : Iter} (hit : IsIter iter)
    {N : ℕ} (hN : N ∈ [16, 32, 64, 128, 256, 512, 1024]) (order : ℕ) (b : Brentq) :
    constructGrids iter N order (fun q => isInteriorF F F.AD F.a (fun _ => F.rnd probR) N q.1 q.2)
      = constructGrids iter N order (mkEnv b N probAD probA probR (arcR probR)).interior := by
  have hb : chooseBoundary "arc" = .ok (arcR probR) := by
    unfold chooseBoundary boundaryTable
    rfl
  have hR : |F.rnd probR - probR| ≤ 1 / 2 ^ 53 * 2.3 := by
    refine Rnd.rel' h (lo := 2) ?_ ?_ (by norm_num) (by norm_num) <;> unfold probR <;> rw [abs_of_pos (by norm_num)] <;> norm_num
  have hp1 := pi_gt_d20
  have hp2 := pi_lt_d20
  have hlo : 9.869604401 < π ^ 2 := by nlinarith
  have hhi : π ^ 2 < 9.869604402 := by nlinarith
  have key : N ≤ 1024 ∧ ∃ k : ℤ, (k + 1 / 1000) * π ^ 2 < 5.29 * N ^ 2 ∧ 5.29 * N ^ 2 < (k + 1 - 1 / 1000) * π ^ 2 := by
    simp only [List.mem_cons, List.not_mem_nil, or_false] at hN
    rcases hN with rfl | rfl | rfl | rfl | rfl | rfl | rfl
    · exact ⟨by norm_num, 137, by norm_num; linarith, by norm_num; linarith⟩
    · exact ⟨by norm_num, 548, by norm_num; linarith, by norm_num; linarith⟩
    · exact ⟨by norm_num, 2195, by norm_num; linarith, by norm_num; linarith⟩
    · exact ⟨by norm_num, 8781, by norm_num; linarith, by norm_num; linarith⟩
    · exact ⟨by norm_num, 35126, by norm_num; linarith, by norm_num; linarith⟩
    · exact ⟨by norm_num, 140506, by norm_num; linarith, by norm_num; linarith⟩
    · exact ⟨by norm_num, 562025, by norm_num; linarith, by norm_num; linarith⟩
  obtain ⟨hle, k, k1, k2⟩ := key
  exact C96_grids h hl hd hit (by omega) order hb (η := 1 / 2 ^ 53 * 2.3) (by norm_num)
    (fun t _ _ => hR) (fun nd hnd _ => arc_band hle k1 k2 hnd (by norm_num)) b

/-! ## Arithmetics that meet the assumptions -/

/-- one double below `np.pi / 4` -/
theorem pred_double {a : ℝ} (ha : IsDouble a) (h1 : 1 / 2 ≤ a) (h2 : a < 1) : IsDouble (a - 1 / 2 ^ 53) := by
  obtain ⟨m, e, hm, he1, he2, rfl⟩ := ha
  have hm1 : (m : ℝ) < 2 ^ 53 := by exact_mod_cast (abs_lt.1 hm).2
  have he : -53 ≤ e := by
    by_contra hc
    have h3 : (2 : ℝ) ^ e ≤ 2 ^ (-54 : ℤ) := zpow_le_zpow_right₀ (by norm_num) (by omega)
    have h4 : (0 : ℝ) < 2 ^ e := by positivity
    have h5 : (m : ℝ) * 2 ^ e < 2 ^ 53 * 2 ^ e := mul_lt_mul_of_pos_right hm1 h4
    have h6 : (2 : ℝ) ^ (-54 : ℤ) = 1 / 2 ^ 54 := by norm_num
    rw [h6] at h3
    have : (2 : ℝ) ^ 53 * (1 / 2 ^ 54) = 1 / 2 := by norm_num
    nlinarith
  obtain ⟨t, ht⟩ : ∃ t : ℕ, e = t - 53 := ⟨(e + 53).toNat, by omega⟩
  have hval : (m : ℝ) * 2 ^ e = (m * 2 ^ t : ℤ) * (1 / 2 ^ 53) := by
    rw [ht, zpow_sub₀ (by norm_num), zpow_natCast]; push_cast; norm_num; ring
  rw [hval] at h1 h2 ⊢
  set M : ℤ := m * 2 ^ t
  have hM1 : (M : ℝ) < 2 ^ 53 := by
    have : (0 : ℝ) < 1 / 2 ^ 53 := by positivity
    by_contra hc
    rw [not_lt] at hc
    have := mul_le_mul_of_nonneg_right hc this.le
    norm_num at *; linarith
  have hM2 : (0 : ℝ) ≤ M := by
    by_contra hc
    rw [not_le] at hc
    have : (M : ℝ) * (1 / 2 ^ 53) < 0 := mul_neg_of_neg_of_pos hc (by positivity)
    linarith
  have hM1' : M < 2 ^ 53 := by exact_mod_cast hM1
  have hM2' : 0 ≤ M := by exact_mod_cast hM2
  refine ⟨M - 1, -53, by rw [abs_lt]; constructor <;> omega, by norm_num, by norm_num, ?_⟩
  push_cast
  norm_num
  ring

/-- the library functions that return the nearest double, except for a chosen value `c` on the diagonal -/
noncomputable def nearestFl (rnd : ℝ → ℝ) (c : ℝ) : Fl :=
  open Classical in
  ⟨rnd, fun x y => rnd √(x ^ 2 + y ^ 2), fun y x => if y = x ∧ 0 < x then c else rnd (Complex.arg ⟨x, y⟩)⟩

theorem nearestFl_libm {rnd : ℝ → ℝ} (h : RoundsToNearest rnd) {c : ℝ} (hc : IsDouble c) (hc2 : |c - π / 4| ≤ 1 / 2 ^ 50 * (π / 4)) :
    Libm (nearestFl rnd c).hypot (nearestFl rnd c).atan2 := by
  have hpi := pi_gt_d2
  have hpi2 := pi_lt_d6
  have hpow : (2 : ℝ) ^ 401 ≤ 2 ^ 1000 := pow_le_pow_right₀ (by norm_num) (by norm_num)
  have hpow2 : (1 : ℝ) / 2 ^ 1000 ≤ 1 / 2 ^ 801 := one_div_le_one_div_of_le (by positivity) (pow_le_pow_right₀ (by norm_num) (by norm_num))
  have hpow3 : (1 : ℝ) / 2 ^ 1000 ≤ 1 / 2 ^ 400 := one_div_le_one_div_of_le (by positivity) (pow_le_pow_right₀ (by norm_num) (by norm_num))
  have habs : ∀ x, Moderate x → |x| ≤ 2 ^ 400 := fun x hx => by
    rcases hx with rfl | hx
    · rw [abs_zero]; positivity
    · exact hx.2
  have hρ : ∀ x y, Moderate x → Moderate y → √(x ^ 2 + y ^ 2) ≤ 2 ^ 401 := fun x y hx hy => by
    rw [← norm_mk]
    refine (Complex.norm_le_abs_re_add_abs_im _).trans ?_
    have e1 : |(⟨x, y⟩ : ℂ).re| ≤ 2 ^ 400 := habs x hx
    have e2 : |(⟨x, y⟩ : ℂ).im| ≤ 2 ^ 400 := habs y hy
    have e3 : (2 : ℝ) ^ 401 = 2 ^ 400 + 2 ^ 400 := by rw [pow_succ, mul_two]
    rw [e3]; exact add_le_add e1 e2
  have hyp0 : ∀ x y, Moderate x → Moderate y → √(x ^ 2 + y ^ 2) = 0 ∨ 1 / 2 ^ 1000 ≤ |√(x ^ 2 + y ^ 2)| ∧ |√(x ^ 2 + y ^ 2)| ≤ 2 ^ 1000 :=
    fun x y hx hy => by
    have hup : |√(x ^ 2 + y ^ 2)| ≤ 2 ^ 1000 := by rw [abs_of_nonneg (sqrt_nonneg _)]; exact (hρ x y hx hy).trans hpow
    rcases hx with rfl | hx
    · rcases hy with rfl | hy
      · left; norm_num
      · refine .inr ⟨hpow3.trans (hy.1.trans ?_), hup⟩
        rw [abs_of_nonneg (sqrt_nonneg _)]
        exact abs_le_sqrt (by rw [zero_pow two_ne_zero, zero_add])
    · refine .inr ⟨hpow3.trans (hx.1.trans ?_), hup⟩
      rw [abs_of_nonneg (sqrt_nonneg _)]
      exact abs_le_sqrt (le_add_of_nonneg_right (sq_nonneg y))
  have harg : ∀ x y, Moderate x → Moderate y →
      Complex.arg ⟨x, y⟩ = 0 ∨ 1 / 2 ^ 1000 ≤ |Complex.arg ⟨x, y⟩| ∧ |Complex.arg ⟨x, y⟩| ≤ 2 ^ 1000 := fun x y hx hy => by
    have hup : |Complex.arg ⟨x, y⟩| ≤ 2 ^ 1000 :=
      le_big (c := 4) ((Complex.abs_arg_le_pi _).trans (by linarith)) (by norm_num)
    by_cases h0 : Complex.arg ⟨x, y⟩ = 0
    · exact .inl h0
    refine .inr ⟨?_, hup⟩
    rcases hy with rfl | hy'
    · have : Complex.arg ⟨x, 0⟩ = π := by
        refine Complex.arg_eq_pi_iff.2 ⟨?_, rfl⟩
        by_contra hx0
        exact h0 (Complex.arg_eq_zero_iff.2 ⟨not_lt.1 hx0, rfl⟩)
      rw [this, abs_of_pos pi_pos]
      have : (1 : ℝ) / 2 ^ 1000 ≤ 1 := by rw [div_le_one (by positivity)]; exact one_le_pow₀ (by norm_num)
      exact this.trans (le_trans (by norm_num) pi_gt_three.le)
    · have h1 : |sin (Complex.arg ⟨x, y⟩)| ≤ |Complex.arg ⟨x, y⟩| := abs_sin_le_abs
      refine le_trans ?_ h1
      rw [Complex.sin_arg, norm_mk, abs_div, abs_of_nonneg (sqrt_nonneg _)]
      have hr := hρ x y hx (.inr hy')
      have hypos : 0 < |y| := lt_of_lt_of_le (by positivity) hy'.1
      have hrp : 0 < √(x ^ 2 + y ^ 2) := by
        have : 0 < y ^ 2 := by rw [← sq_abs]; positivity
        positivity
      refine hpow2.trans ?_
      show _ ≤ |y| / _
      rw [div_le_div_iff₀ (by positivity) hrp]
      have e1 : (2 : ℝ) ^ 801 = 2 ^ 400 * 2 ^ 401 := by rw [← pow_add]
      have e2 : 1 ≤ |y| * 2 ^ 400 := by
        have := hy'.1
        rwa [div_le_iff₀ (by positivity)] at this
      rw [e1]
      calc 1 * √(x ^ 2 + y ^ 2) ≤ 1 * 2 ^ 401 := by linarith
        _ ≤ (|y| * 2 ^ 400) * 2 ^ 401 := mul_le_mul_of_nonneg_right e2 (by positivity)
        _ = |y| * (2 ^ 400 * 2 ^ 401) := by ring
  have weaken : ∀ v : ℝ, 1 / 2 ^ 53 * |v| ≤ 1 / 2 ^ 50 * |v| := fun v =>
    mul_le_mul_of_nonneg_right (by norm_num) (abs_nonneg _)
  have big : ∀ v : ℝ, (v = 0 ∨ 1 / 2 ^ 1000 ≤ |v| ∧ |v| ≤ 2 ^ 1000) → |v| ≤ 2 ^ 1000 := fun v hv => by
    rcases hv with rfl | hv
    · rw [abs_zero]; positivity
    · exact hv.2
  refine ⟨fun x y _ _ mx my => ⟨Rnd.double h (big _ (hyp0 x y mx my)), ?_⟩, fun x y _ _ mx my => ?_, fun x y _ _ mx my => ?_⟩
  · unfold nearestFl
    dsimp only
    split_ifs
    · exact hc
    · exact Rnd.double h (big _ (harg x y mx my))
  · have := (Rnd.rel h (hyp0 x y mx my)).trans (weaken _)
    rwa [abs_of_nonneg (sqrt_nonneg _)] at this
  · unfold nearestFl
    dsimp only
    split_ifs with hif
    · obtain ⟨rfl, hpos⟩ := hif
      have : Complex.arg ⟨y, y⟩ = π / 4 := by
        have h1 := arg_sub_sin y y (by positivity)
        rw [sub_self, zero_div] at h1
        have h2 := Complex.abs_arg_lt_pi_div_two_iff (z := ⟨y, y⟩) |>.2 (.inl hpos)
        have h3 := (sin_eq_zero_iff_of_lt_of_lt (by linarith [(abs_lt.1 h2).1]) (by linarith [(abs_lt.1 h2).2])).1 h1
        linarith
      rw [this, abs_of_pos (by positivity : 0 < π / 4)]
      exact hc2
    · exact (Rnd.rel h (harg x y mx my)).trans (weaken _)

/-- there is an arithmetic that meets all assumptions -/
theorem C96_assumptions : ∃ F : Fl, RoundsToNearest F.rnd ∧ Libm F.hypot F.atan2 ∧ DiagExact F := by
  obtain ⟨rnd, h⟩ := exists_roundsToNearest
  set F0 : Fl := ⟨rnd, 0, 0⟩
  have h0 : RoundsToNearest F0.rnd := h
  obtain ⟨b1, b2⟩ := pi_bounds h0
  have hd : IsDouble F0.a := Rnd.double h (le_big (c := 1) (by rw [abs_of_pos (by linarith)]; linarith) (by norm_num))
  refine ⟨nearestFl rnd F0.a, h, nearestFl_libm h hd ((a_err h0).trans (by linarith [pi_gt_three])), fun x _ _ hx => ?_⟩
  show F0.a ≤ _
  unfold nearestFl
  dsimp only
  rw [if_pos ⟨rfl, hx⟩]

/-- The accuracy of the library functions alone does not suffice: there is an arithmetic, with `atan2` off by one unit in the last place
on the diagonal, in which no node of the side `θ = a` (other than the tip) is interior, whatever the curve and the grid. -/
theorem C96_diagonal_lost : ∃ F : Fl, RoundsToNearest F.rnd ∧ Libm F.hypot F.atan2 ∧
    ∀ (N : ℕ) (i : ℤ) (evalR : ℝ → ℝ), 0 < N → N ≤ 2 ^ 40 → N < 2 * i → i ≤ N →
      inWedge N i i ∧ ¬ isInteriorF F F.AD F.a evalR N i i := by
  obtain ⟨rnd, h⟩ := exists_roundsToNearest
  set F0 : Fl := ⟨rnd, 0, 0⟩
  have h0 : RoundsToNearest F0.rnd := h
  obtain ⟨b1, b2⟩ := pi_bounds h0
  obtain ⟨a1, a2⟩ := a_bounds h0
  have hd : IsDouble F0.a := Rnd.double h (le_big (c := 1) (by rw [abs_of_pos (by linarith)]; linarith) (by norm_num))
  have hl : Libm (nearestFl rnd (F0.a - 1 / 2 ^ 53)).hypot (nearestFl rnd (F0.a - 1 / 2 ^ 53)).atan2 := by
    refine nearestFl_libm h (pred_double hd (by linarith) (by linarith)) ?_
    have := abs_le.1 (a_err h0)
    have := pi_gt_three
    rw [abs_le]
    norm_num at *
    constructor <;> linarith
  refine ⟨_, h, hl, fun N i evalR hN hN2 hpos hi => ?_⟩
  have h0i : 0 ≤ i := by omega
  obtain ⟨w1, w2⟩ := C96_diagonal (F := nearestFl rnd (F0.a - 1 / 2 ^ 53)) h hl hN hN2 ⟨h0i, hi⟩ ⟨h0i, hi⟩ rfl hpos
  refine ⟨w1, fun q => ?_⟩
  have h3 := w2.1 q.2
  have cx := coord_close (F := nearestFl rnd (F0.a - 1 / 2 ^ 53)) h hN hN2 h0i hi
  have hp : 0 < coordF (nearestFl rnd (F0.a - 1 / 2 ^ 53)) (nearestFl rnd (F0.a - 1 / 2 ^ 53)).AD N i := by
    rw [cx.pos]
    have hNr : (0 : ℝ) < N := by exact_mod_cast hN
    have h1 : (N : ℝ) < 2 * i := by exact_mod_cast hpos
    have : 1 / 2 < (i : ℝ) / N := by rw [div_lt_div_iff₀ two_pos hNr]; linarith
    have := pi_pos
    unfold probAD
    nlinarith
  have h4 : (nearestFl rnd (F0.a - 1 / 2 ^ 53)).atan2
      (coordF (nearestFl rnd (F0.a - 1 / 2 ^ 53)) (nearestFl rnd (F0.a - 1 / 2 ^ 53)).AD N i)
      (coordF (nearestFl rnd (F0.a - 1 / 2 ^ 53)) (nearestFl rnd (F0.a - 1 / 2 ^ 53)).AD N i) = F0.a - 1 / 2 ^ 53 := if_pos ⟨rfl, hp⟩
  rw [h4] at h3
  have h5 : F0.a ≤ F0.a - 1 / 2 ^ 53 := h3
  norm_num at h5

/-- a node on the side `θ = 2π`, one on the side `θ = a` and one in the removed wedge, on the smallest grid -/
example : ∃ F : Fl, RoundsToNearest F.rnd ∧ Libm F.hypot F.atan2 ∧ inWedgeF F F.AD F.a 16 12 8 ∧ inWedgeF F F.AD F.a 16 12 12 ∧
    ¬ inWedgeF F F.AD F.a 16 12 10 := by
  obtain ⟨F, h, hl, hd⟩ := C96_assumptions
  have hpi := pi_pos
  refine ⟨F, h, hl, ?_, ?_, ?_⟩
  · rw [(C96_sides h hl (by norm_num) (by norm_num) (by norm_num) (by norm_num) hd).1]
    norm_num [getCoord, probAD]
  · rw [(C96_sides h hl (by norm_num) (by norm_num) (by norm_num) (by norm_num) hd).1]
    norm_num [getCoord, probAD]
  · rw [(C96_sides h hl (by norm_num) (by norm_num) (by norm_num) (by norm_num) hd).1]
    norm_num [getCoord, probAD]
    constructor <;> nlinarith

/-- the arc on the grid 64 -/
example (b : Brentq) : ∃ F : Fl, RoundsToNearest F.rnd ∧
    constructGrids (fun _ s => s.toList) 64 4 (fun q => isInteriorF F F.AD F.a (fun _ => F.rnd probR) 64 q.1 q.2)
      = constructGrids (fun _ s => s.toList) 64 4 (mkEnv b 64 probAD probA probR (arcR probR)).interior := by
  obtain ⟨F, h, hl, hd⟩ := C96_assumptions
  exact ⟨F, h, C96_arc h hl hd isIter_toList (by decide) 4 b⟩

end Pot
