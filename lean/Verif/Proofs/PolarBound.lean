import Verif.Proofs.PolarStable

/-! # The bound of a mode, computed by integers -/

namespace Pot
open Real Spec

/-- upper bound of the absolute value, in units of `2 ^ (-96)` -/
def Fp.abs (f : Fp) : ℕ := Nat.add f.mag f.rad
/-- the product of two numbers in units of `2 ^ (-96)`, rounded up -/
def upMul (a b : ℕ) : ℕ := Nat.succ (Nat.div (Nat.mul a b) fpS)
/-- the quotient by a number that is not smaller than `s.mag - s.rad`, rounded up -/
def upDiv (a : ℕ) (s : Fp) : ℕ := Nat.succ (Nat.div (Nat.mul a fpS) (Nat.sub s.mag s.rad))
def natMax (a b : ℕ) : ℕ := Nat.add a (Nat.sub b a)
/-- enclosure of `pvDn` -/
def fpDnv (x x3 e0 : Fp) : Fp := (((Fp.nat 2).sub x).mul e0).force fun d => d.sub x3

/-- elimination from the inner circle on with the circle `m` next, then from the outer circle back to `m`.  `q w (m - 1) + c w m` is bounded
by `a` times the right-hand side plus `a'` times the boundary values; the continuation gets `p`, `d`, `b`, `b'`, `B`, `B'` where `b` and `b'`
bound `p w m + d w (m - 1)` and `B` and `B'` bound `w m, …`. -/
def stGo (W y E F : Fp) (D b n : ℕ) : ℕ → Fp → Fp → Fp → Fp → ℕ → ℕ → (Fp → Fp → ℕ → ℕ → ℕ → ℕ → Bool) → Bool :=
  Nat.rec (fun _ _ _ _ _ _ _ k => k (Fp.nat 1) (Fp.nat 0) 0 fpS 0 0)
    (fun _ rec m e0 e1 q c a a' k =>
      (fpX D b m).force fun x => (fpCube x).force fun x3 => (fpDg E F x e1).force fun g => (fpDnv x x3 e0).force fun d =>
      (d.div q).force fun r => (g.sub (r.mul c)).force fun q' => forceN (upMul r.abs a) fun α => forceN (upMul r.abs a') fun α' =>
      q'.ok && forceN (Nat.succ m) fun m' => (fpE W y D b m').force fun e2 => (fpUp x x3 e2).force fun c' =>
      rec m' e1 e2 q' c' (Nat.add fpS α) α' fun p' d' cc cc' bd bd' =>
        (c'.div p').force fun r' => (r'.mul d').force fun U => forceN (upMul r'.abs cc) fun γ => forceN (upMul r'.abs cc') fun γ' =>
        (g.sub U).force fun p => (q'.sub U).force fun s => p.ok && (s.ok &&
        forceN (natMax bd (upDiv (Nat.add (Nat.add fpS α) γ) s)) fun B => forceN (natMax bd' (upDiv (Nat.add α' γ') s)) fun B' =>
        k p d (Nat.add fpS γ) γ' B B')) n

theorem stGo_succ (W y E F : Fp) (D b n m : ℕ) (e0 e1 q c : Fp) (a a' : ℕ) (k : Fp → Fp → ℕ → ℕ → ℕ → ℕ → Bool) :
    stGo W y E F D b (n + 1) m e0 e1 q c a a' k =
      ((fpX D b m).force fun x => (fpCube x).force fun x3 => (fpDg E F x e1).force fun g => (fpDnv x x3 e0).force fun d =>
      (d.div q).force fun r => (g.sub (r.mul c)).force fun q' => forceN (upMul r.abs a) fun α => forceN (upMul r.abs a') fun α' =>
      q'.ok && forceN (Nat.succ m) fun m' => (fpE W y D b m').force fun e2 => (fpUp x x3 e2).force fun c' =>
      stGo W y E F D b n m' e1 e2 q' c' (Nat.add fpS α) α' fun p' d' cc cc' bd bd' =>
        (c'.div p').force fun r' => (r'.mul d').force fun U => forceN (upMul r'.abs cc) fun γ => forceN (upMul r'.abs cc') fun γ' =>
        (g.sub U).force fun p => (q'.sub U).force fun s => p.ok && (s.ok &&
        forceN (natMax bd (upDiv (Nat.add (Nat.add fpS α) γ) s)) fun B => forceN (natMax bd' (upDiv (Nat.add α' γ') s)) fun B' =>
        k p d (Nat.add fpS γ) γ' B B')) := rfl

/-- the bounds `B`, `B'` of the mode satisfy `test B B'` -/
def stMode (κ σ y : Fp) (D b N : ℕ) (test : ℕ → ℕ → Bool) : Bool :=
  κ.force fun κ => σ.force fun σ => y.force fun y =>
  ((Fp.nat 12).sub σ).force fun E => (E.add κ).force fun W => ((Fp.nat 2).mul ((Fp.nat 24).add (σ.mul (κ.sub (Fp.nat 2))))).force fun F =>
  stGo W y E F D b (N - 1) 1 (fpE W y D b 0) (fpE W y D b 1) (Fp.nat 1) (Fp.nat 0) 0 fpS fun _ _ _ _ B B' => test B B'

section
variable {κ σ y : ℝ} {D b : ℕ}

theorem Fp.abs_le {f : Fp} {x : ℝ} (hf : f.Has x) : |x| * fpS ≤ f.abs := by
  have hS := fpS_pos
  unfold Fp.Has at hf
  change _ ≤ ((f.mag + f.rad : ℕ) : ℝ)
  push_cast
  rw [Fp.mag_eq, ← abs_of_pos hS, ← abs_mul]
  have := abs_sub_abs_le_abs_sub (x * fpS) f.mid
  linarith

theorem Fp.le_abs {f : Fp} {x : ℝ} (hf : f.Has x) (ho : f.ok = true) :
    0 < (Nat.sub f.mag f.rad) ∧ ((Nat.sub f.mag f.rad : ℕ) : ℝ) ≤ |x| * fpS := by
  have hS := fpS_pos
  have h := Fp.ok_lt ho
  unfold Fp.Has at hf
  refine ⟨Nat.sub_pos_of_lt h, ?_⟩
  rw [show Nat.sub f.mag f.rad = f.mag - f.rad from rfl, Nat.cast_sub h.le, Fp.mag_eq, ← abs_of_pos hS, ← abs_mul]
  have := abs_sub_abs_le_abs_sub f.mid (x * fpS)
  rw [abs_sub_comm] at this
  linarith

theorem upMul_le (a b : ℕ) : (a : ℝ) * b ≤ upMul a b * fpS := by
  have hS := fpS_pos
  have := natdiv_near (a * b) fpS
  change _ ≤ ((a * b / fpS + 1 : ℕ) : ℝ) * fpS
  rw [div_le_iff₀ hS] at this
  push_cast at this ⊢
  exact this

theorem upDiv_le {s : Fp} {x : ℝ} (hs : s.Has x) (ho : s.ok = true) (a : ℕ) : (a : ℝ) ≤ upDiv a s * |x| := by
  have hS := fpS_pos
  obtain ⟨h0, h1⟩ := Fp.le_abs hs ho
  have h2 := natdiv_near (a * fpS) (Nat.sub s.mag s.rad)
  have h0' : (0 : ℝ) < (Nat.sub s.mag s.rad : ℕ) := by exact_mod_cast h0
  change _ ≤ ((a * fpS / Nat.sub s.mag s.rad + 1 : ℕ) : ℝ) * |x|
  rw [div_le_iff₀ h0'] at h2
  push_cast at h2 ⊢
  generalize ((a * fpS / Nat.sub s.mag s.rad : ℕ) : ℝ) = u at *
  have h3 : (0 : ℝ) ≤ u + 1 := by
    by_contra hneg
    have : (a : ℝ) * fpS < 0 := h2.trans_lt (mul_neg_of_neg_of_pos (by linarith) h0')
    have : (0 : ℝ) ≤ (a : ℝ) * fpS := by positivity
    linarith
  have h4 : (a : ℝ) * fpS ≤ (u + 1) * |x| * fpS := by
    rw [mul_assoc]
    exact h2.trans (mul_le_mul_of_nonneg_left h1 h3)
  exact le_of_mul_le_mul_right h4 hS

theorem natMax_le (a b : ℕ) : a ≤ natMax a b ∧ b ≤ natMax a b := by
  change a ≤ a + (b - a) ∧ b ≤ a + (b - a)
  omega

theorem fpDg_has {fE fF fx e1 : Fp} {x a1 E F : ℝ} (hx : fx.Has x) (h1 : e1.Has a1) (hE : fE.Has E) (hF : fF.Has F) :
    (fpDg fE fF fx e1).Has ((a1 - E) * (20 + (x * x + x * x)) - F) := by
  simp only [fpDg, Fp.force_eq]
  have i20 := Fp.nat_has 20
  push_cast at i20
  have x2 := Fp.norm_has (Fp.mul_has hx hx)
  exact Fp.sub_has (Fp.norm_has (Fp.mul_has (Fp.sub_has h1 hE) (Fp.norm_has (Fp.add_has i20 (Fp.add_has x2 x2))))) hF

theorem fpDnv_has {fx fx3 e0 : Fp} {x a : ℝ} (hx : fx.Has x) (hx3 : fx3.Has (x * x * x + x * x * x)) (h0 : e0.Has a) :
    (fpDnv fx fx3 e0).Has ((2 - x) * a - (x * x * x + x * x * x)) := by
  simp only [fpDnv, Fp.force_eq]
  have i2 := Fp.nat_has 2
  push_cast at i2
  exact Fp.sub_has (Fp.norm_has (Fp.mul_has (Fp.sub_has i2 hx) h0)) hx3

/-- `a T + b β` with `a`, `b` in units of `2 ^ (-96)` -/
noncomputable def lin (T β : ℝ) (a b : ℕ) : ℝ := (a : ℝ) / fpS * T + (b : ℝ) / fpS * β

section
variable {T β : ℝ}

theorem lin_add (a b a' b' : ℕ) : lin T β (Nat.add a a') (Nat.add b b') = lin T β a b + lin T β a' b' := by
  change ((a + a' : ℕ) : ℝ) / fpS * T + ((b + b' : ℕ) : ℝ) / fpS * β = _
  unfold lin
  push_cast
  ring

theorem lin_one : lin T β fpS 0 = T := by
  unfold lin
  rw [div_self fpS_pos.ne']
  simp

theorem lin_one' : lin T β 0 fpS = β := by
  unfold lin
  rw [div_self fpS_pos.ne']
  simp

theorem lin_mono (hT : 0 ≤ T) (hβ : 0 ≤ β) {a b a' b' : ℕ} (h1 : a ≤ a') (h2 : b ≤ b') : lin T β a b ≤ lin T β a' b' := by
  have hS := fpS_pos
  have h1' : (a : ℝ) ≤ a' := by exact_mod_cast h1
  have h2' : (b : ℝ) ≤ b' := by exact_mod_cast h2
  unfold lin
  gcongr

theorem upMul_real {f : Fp} {r : ℝ} (hr : f.Has r) (a : ℕ) : |r| * (a / fpS) ≤ (upMul f.abs a : ℝ) / fpS := by
  have hS := fpS_pos
  have h1 := Fp.abs_le hr
  have h2 := upMul_le f.abs a
  rw [mul_div_assoc', div_le_div_iff_of_pos_right hS]
  have : |r| * fpS * a ≤ (f.abs : ℝ) * a := mul_le_mul_of_nonneg_right h1 (by positivity)
  have h4 : |r| * a * fpS ≤ (upMul f.abs a : ℝ) * fpS := by linarith
  exact le_of_mul_le_mul_right h4 hS

/-- one step of elimination -/
theorem elim_bound {f : Fp} {r : ℝ} (hr : f.Has r) {g : ℂ} {a b : ℕ} (hT : 0 ≤ T) (hβ : 0 ≤ β) (hg : ‖g‖ ≤ lin T β a b) :
    ‖(r : ℂ) * g‖ ≤ lin T β (upMul f.abs a) (upMul f.abs b) := by
  rw [norm_mul, Complex.norm_real, Real.norm_eq_abs]
  have h1 := mul_le_mul_of_nonneg_right (upMul_real hr a) hT
  have h2 := mul_le_mul_of_nonneg_right (upMul_real hr b) hβ
  have h3 := mul_le_mul_of_nonneg_left hg (abs_nonneg r)
  unfold lin at h3 ⊢
  linarith

/-- both eliminations together -/
theorem combine_bound {s : Fp} {x : ℝ} (hs : s.Has x) (ho : s.ok = true) (hT : 0 ≤ T) (hβ : 0 ≤ β) {v g : ℂ} {a b : ℕ} (e : (x : ℂ) * v = g)
    (hg : ‖g‖ ≤ lin T β a b) : ‖v‖ ≤ lin T β (upDiv a s) (upDiv b s) := by
  have hS := fpS_pos
  have S0 : x ≠ 0 := Fp.ok_ne ho hs
  rw [← e, norm_mul, Complex.norm_real, Real.norm_eq_abs] at hg
  have b1 := mul_le_mul_of_nonneg_right (div_le_div_of_nonneg_right (upDiv_le hs ho a) hS.le) hT
  have b2 := mul_le_mul_of_nonneg_right (div_le_div_of_nonneg_right (upDiv_le hs ho b) hS.le) hβ
  refine le_of_mul_le_mul_left ?_ (abs_pos.2 S0)
  unfold lin at hg ⊢
  refine hg.trans ((add_le_add b1 b2).trans_eq ?_)
  ring

end

theorem stGo_sound {fW fy fE fF : Fp} (hW : fW.Has (12 - σ + κ)) (hy : fy.Has y) (hE : fE.Has (12 - σ))
    (hF : fF.Has (2 * (24 + σ * (κ - 2)))) {w : ℕ → ℂ} {T β : ℝ} (hT : 0 ≤ T) (hβ : 0 ≤ β) {N : ℕ} (wN : ‖w N‖ ≤ β)
    (hw : ∀ m, 0 < m → m < N → ‖(pvUp κ σ y (fun m => (D : ℝ) / (b + m * D)) m : ℂ) * w (m + 1)
        + pvDg κ σ y (fun m => (D : ℝ) / (b + m * D)) m * w m + pvDn κ σ y (fun m => (D : ℝ) / (b + m * D)) m * w (m - 1)‖ ≤ T) :
    ∀ (n m : ℕ) (e0 e1 q c : Fp) (a a' : ℕ) (k : Fp → Fp → ℕ → ℕ → ℕ → ℕ → Bool), m + 1 + n = N →
    e0.Has (pvE κ σ y (fun m => (D : ℝ) / (b + m * D)) m) → e1.Has (pvE κ σ y (fun m => (D : ℝ) / (b + m * D)) (m + 1)) →
    (∃ Q C : ℝ, q.Has Q ∧ c.Has C ∧ ‖(Q : ℂ) * w m + C * w (m + 1)‖ ≤ lin T β a a') → q.ok = true →
    stGo fW fy fE fF D b n (m + 1) e0 e1 q c a a' k = true →
    ∃ p d cc cc' bd bd', k p d cc cc' bd bd' = true ∧
      (∃ P d' : ℝ, p.Has P ∧ d.Has d' ∧ ‖(P : ℂ) * w (m + 1) + d' * w m‖ ≤ lin T β cc cc') ∧ p.ok = true ∧
      ∀ i, m < i → i < N → ‖w i‖ ≤ lin T β bd bd'
  | 0, m, _, _, _, _, _, _, k, hm, _, _, _, _, hgo => by
    refine ⟨_, _, _, _, _, _, hgo, ⟨1, 0, by simpa using Fp.nat_has 1, by simpa using Fp.nat_has 0, ?_⟩, by decide, fun i h1 h2 => by omega⟩
    rw [show m + 1 = N by omega, lin_one']
    simpa using wN
  | n + 1, m, e0, e1, q, c, a, a', k, hm, h0, h1, ⟨Q, C, hq, hc, hQC⟩, hok, hgo => by
    have hS := fpS_pos
    simp only [stGo_succ, Bool.and_eq_true, Fp.force_eq, forceN_eq] at hgo
    obtain ⟨ok', hgo⟩ := hgo
    have hx := Fp.norm_has (fpX_has (D := D) (b := b) (m + 1))
    have hx3 := Fp.norm_has (fpCube_has hx)
    have hg := Fp.norm_has (fpDg_has hx h1 hE hF)
    have hd := Fp.norm_has (fpDnv_has hx hx3 h0)
    have hr := Fp.norm_has (Fp.div_has hd hq hok)
    have hq' := Fp.norm_has (Fp.sub_has hg (Fp.mul_has hr hc))
    have he2 := Fp.norm_has (fpE_has (D := D) (b := b) hW hy (m + 1 + 1))
    have hc' := Fp.norm_has (fpUp_has hx hx3 he2)
    have eqn := hw (m + 1) (by omega) (by omega)
    rw [show m + 1 - 1 = m from rfl] at eqn
    have eg : pvDg κ σ y (fun m => (D : ℝ) / (b + m * D)) (m + 1) = (pvE κ σ y (fun m => (D : ℝ) / (b + m * D)) (m + 1) - (12 - σ)) *
      (20 + ((D : ℝ) / (b + (m + 1 : ℕ) * D) * ((D : ℝ) / (b + (m + 1 : ℕ) * D)) + (D : ℝ) / (b + (m + 1 : ℕ) * D) * ((D : ℝ) / (b + (m + 1 : ℕ) * D)))) -
        2 * (24 + σ * (κ - 2)) := rfl
    have ed : pvDn κ σ y (fun m => (D : ℝ) / (b + m * D)) (m + 1) = (2 - (D : ℝ) / (b + (m + 1 : ℕ) * D)) * pvE κ σ y (fun m => (D : ℝ) / (b + m * D)) m -
      ((D : ℝ) / (b + (m + 1 : ℕ) * D) * ((D : ℝ) / (b + (m + 1 : ℕ) * D)) * ((D : ℝ) / (b + (m + 1 : ℕ) * D)) +
        (D : ℝ) / (b + (m + 1 : ℕ) * D) * ((D : ℝ) / (b + (m + 1 : ℕ) * D)) * ((D : ℝ) / (b + (m + 1 : ℕ) * D))) := rfl
    have eu : pvUp κ σ y (fun m => (D : ℝ) / (b + m * D)) (m + 1) = (2 + (D : ℝ) / (b + (m + 1 : ℕ) * D)) * pvE κ σ y (fun m => (D : ℝ) / (b + m * D)) (m + 1 + 1) +
      ((D : ℝ) / (b + (m + 1 : ℕ) * D) * ((D : ℝ) / (b + (m + 1 : ℕ) * D)) * ((D : ℝ) / (b + (m + 1 : ℕ) * D)) +
        (D : ℝ) / (b + (m + 1 : ℕ) * D) * ((D : ℝ) / (b + (m + 1 : ℕ) * D)) * ((D : ℝ) / (b + (m + 1 : ℕ) * D))) := rfl
    rw [← eg] at hg hq'
    rw [← ed] at hd hr hq'
    rw [← eu] at hc'
    generalize pvDg κ σ y (fun m => (D : ℝ) / (b + m * D)) (m + 1) = G at *
    generalize pvDn κ σ y (fun m => (D : ℝ) / (b + m * D)) (m + 1) = dn at *
    generalize pvUp κ σ y (fun m => (D : ℝ) / (b + m * D)) (m + 1) = up at *
    clear eg ed eu
    have Q0 : Q ≠ 0 := Fp.ok_ne hok hq
    have Q0' : (Q : ℂ) ≠ 0 := by exact_mod_cast Q0
    set z1 : ℂ := ((dn / Q : ℝ) : ℂ) * ((Q : ℂ) * w m + C * w (m + 1)) with hz1
    have bz1 : ‖z1‖ ≤ _ := elim_bound hr hT hβ hQC
    set f : ℂ := (up : ℂ) * w (m + 1 + 1) + G * w (m + 1) + dn * w m with hf
    have eQ : ((G - dn / Q * C : ℝ) : ℂ) * w (m + 1) + up * w (m + 1 + 1) = f - z1 := by
      rw [hz1, hf]
      push_cast
      field_simp
      ring
    have bf : ∀ {z : ℂ} {u u' : ℕ}, ‖z‖ ≤ lin T β u u' → ‖f - z‖ ≤ lin T β (Nat.add fpS u) u' := by
      intro z u u' hz
      have := lin_add (T := T) (β := β) fpS 0 u u'
      rw [show Nat.add 0 u' = u' from Nat.zero_add u', lin_one] at this
      rw [this]
      exact (norm_sub_le _ _).trans (add_le_add eqn hz)
    obtain ⟨p', d', cc, cc', bd, bd', hk, ⟨P, dd, hp, hd', hPd⟩, okp, hbd⟩ := stGo_sound hW hy hE hF hT hβ wN hw n (m + 1) _ _ _ _ _ _ _ (by omega) h1 he2
      ⟨G - dn / Q * C, up, hq', hc', by
        rw [eQ]
        exact bf bz1⟩ ok' hgo
    rw [Bool.and_eq_true, Bool.and_eq_true] at hk
    obtain ⟨o1, o2, hk⟩ := hk
    have hr' := Fp.norm_has (Fp.div_has hc' hp okp)
    have hU := Fp.norm_has (Fp.mul_has hr' hd')
    have hP := Fp.norm_has (Fp.sub_has hg hU)
    have hs := Fp.norm_has (Fp.sub_has hq' hU)
    have P0 : P ≠ 0 := Fp.ok_ne okp hp
    have P0' : (P : ℂ) ≠ 0 := by exact_mod_cast P0
    set z2 : ℂ := ((up / P : ℝ) : ℂ) * ((P : ℂ) * w (m + 1 + 1) + dd * w (m + 1)) with hz2
    have bz2 : ‖z2‖ ≤ _ := elim_bound hr' hT hβ hPd
    refine ⟨_, _, _, _, _, _, hk, ⟨G - up / P * dd, dn, hP, hd, ?_⟩, o1, fun i hi hi' => ?_⟩
    · have e : ((G - up / P * dd : ℝ) : ℂ) * w (m + 1) + dn * w m = f - z2 := by
        rw [hz2, hf]
        push_cast
        field_simp
        ring
      rw [e]
      exact bf bz2
    · rcases Nat.eq_or_lt_of_le (Nat.succ_le_of_lt hi) with rfl | hlt
      · have e : ((G - dn / Q * C - up / P * dd : ℝ) : ℂ) * w (m + 1) = f - z1 - z2 := by
          rw [← eQ, hz2]
          push_cast
          field_simp
          ring
        refine (combine_bound hs o2 hT hβ e ?_).trans (lin_mono hT hβ (natMax_le bd _).2 (natMax_le bd' _).2)
        rw [lin_add]
        exact (norm_sub_le _ _).trans (add_le_add (bf bz1) bz2)
      · exact (hbd i hlt hi').trans (lin_mono hT hβ (natMax_le bd _).1 (natMax_le bd' _).1)

theorem stMode_sound {fκ fσ fy : Fp} (hκ : fκ.Has κ) (hσ : fσ.Has σ) (hy : fy.Has y) {N : ℕ} (hN : 1 ≤ N) {test : ℕ → ℕ → Bool}
    (h : stMode fκ fσ fy D b N test = true) {w : ℕ → ℂ} {T β : ℝ} (hT : 0 ≤ T) (hβ : 0 ≤ β) (w0 : ‖w 0‖ ≤ β) (wN : ‖w N‖ ≤ β)
    (hw : ∀ m, 0 < m → m < N → ‖(pvUp κ σ y (fun m => (D : ℝ) / (b + m * D)) m : ℂ) * w (m + 1)
        + pvDg κ σ y (fun m => (D : ℝ) / (b + m * D)) m * w m + pvDn κ σ y (fun m => (D : ℝ) / (b + m * D)) m * w (m - 1)‖ ≤ T) :
    ∃ B B' : ℕ, test B B' = true ∧ ∀ m, 0 < m → m < N → ‖w m‖ ≤ (B : ℝ) / fpS * T + (B' : ℝ) / fpS * β := by
  have i2 := Fp.nat_has 2
  have i12 := Fp.nat_has 12
  have i24 := Fp.nat_has 24
  have i1 := Fp.nat_has 1
  have i0 := Fp.nat_has 0
  push_cast at i2 i12 i24 i1 i0
  have hκ := Fp.norm_has hκ
  have hσ := Fp.norm_has hσ
  have hy := Fp.norm_has hy
  have hE := Fp.norm_has (Fp.sub_has i12 hσ)
  have hW := Fp.norm_has (Fp.add_has hE hκ)
  have hF := Fp.norm_has (Fp.mul_has i2 (Fp.add_has i24 (Fp.mul_has hσ (Fp.sub_has hκ i2))))
  simp only [stMode, Fp.force_eq] at h
  obtain ⟨p, d, cc, cc', bd, bd', hk, -, -, hbd⟩ := stGo_sound hW hy hE hF hT hβ wN hw (N - 1) 0 _ _ _ _ _ _ _ (by omega) (fpE_has hW hy 0)
    (fpE_has hW hy 1) ⟨1, 0, i1, i0, by rw [lin_one']; simpa using w0⟩ (by decide) h
  exact ⟨bd, bd', hk, hbd⟩

end

end Pot
