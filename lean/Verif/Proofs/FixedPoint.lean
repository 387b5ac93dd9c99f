import Mathlib.Data.Real.Basic
import Mathlib.Algebra.Order.Field.Basic
import Mathlib.Algebra.Order.BigOperators.Ring.Finset
import Mathlib.Data.Nat.Cast.Order.Field
import Mathlib.Tactic.Linarith
import Mathlib.Tactic.Ring
import Mathlib.Tactic.FieldSimp
import Mathlib.Tactic.Positivity
import Mathlib.Tactic.LinearCombination
import Mathlib.Tactic.GCongr

/-!
# Fixed-point numbers with an error bound

Real numbers are enclosed by natural numbers: `pos - neg` with error at most `rad`, in units of `2 ^ (-96)`.  The operations are computed
by the kernel, hence the bare functions on natural numbers.
-/

namespace Pot

/-- `pos - neg` with error at most `rad`, in units of `2 ^ (-96)` -/
structure Fp where
  pos : ℕ
  neg : ℕ
  rad : ℕ

/-- `2 ^ 96` -/
def fpS : ℕ := 79228162514264337593543950336

/-- the middle of the enclosure -/
def Fp.mid (f : Fp) : ℝ := (f.pos : ℝ) - f.neg

/-- the number lies in the enclosure -/
def Fp.Has (f : Fp) (x : ℝ) : Prop := |x * (fpS : ℝ) - f.mid| ≤ f.rad

def Fp.nat (n : ℕ) : Fp := ⟨Nat.mul n fpS, 0, 0⟩
def Fp.rat (p q : ℕ) : Fp := ⟨Nat.div (Nat.mul p fpS) q, 0, 1⟩
def Fp.add (f g : Fp) : Fp := ⟨Nat.add f.pos g.pos, Nat.add f.neg g.neg, Nat.add f.rad g.rad⟩
def Fp.sub (f g : Fp) : Fp := ⟨Nat.add f.pos g.neg, Nat.add f.neg g.pos, Nat.add f.rad g.rad⟩
def Fp.mul (f g : Fp) : Fp :=
  ⟨Nat.div (Nat.add (Nat.mul f.pos g.pos) (Nat.mul f.neg g.neg)) fpS, Nat.div (Nat.add (Nat.mul f.pos g.neg) (Nat.mul f.neg g.pos)) fpS,
    Nat.add (Nat.div (Nat.add (Nat.add (Nat.mul (Nat.add f.pos f.neg) g.rad) (Nat.mul (Nat.add g.pos g.neg) f.rad)) (Nat.mul f.rad g.rad)) fpS) 2⟩
/-- the absolute value of the middle -/
def Fp.mag (f : Fp) : ℕ := Nat.add (Nat.sub f.pos f.neg) (Nat.sub f.neg f.pos)
def Fp.div (f g : Fp) : Fp :=
  ⟨Nat.div (Nat.mul fpS (Nat.add (Nat.mul f.pos g.pos) (Nat.mul f.neg g.neg))) (Nat.mul g.mag g.mag),
    Nat.div (Nat.mul fpS (Nat.add (Nat.mul f.pos g.neg) (Nat.mul f.neg g.pos))) (Nat.mul g.mag g.mag),
    Nat.add (Nat.div (Nat.mul fpS (Nat.add (Nat.mul f.rad g.mag) (Nat.mul (Nat.add f.pos f.neg) g.rad))) (Nat.mul g.mag (Nat.sub g.mag g.rad))) 2⟩
/-- the enclosure does not contain zero -/
def Fp.ok (f : Fp) : Bool := Nat.ble (Nat.succ f.rad) f.mag

/-- continue with the value of `n`, computed -/
def forceN {α : Type} (n : ℕ) (f : ℕ → α) : α := Nat.rec (f 0) (fun k _ => f (Nat.succ k)) n
/-- the same enclosure with `pos` or `neg` zero -/
def Fp.norm (x : Fp) : Fp := ⟨Nat.sub x.pos x.neg, Nat.sub x.neg x.pos, x.rad⟩
/-- continue with the value of `x`, computed -/
def Fp.force {α : Type} (x : Fp) (f : Fp → α) : α :=
  forceN (Nat.sub x.pos x.neg) fun p => forceN (Nat.sub x.neg x.pos) fun n => forceN x.rad fun r => f ⟨p, n, r⟩

theorem forceN_eq {α : Type} (n : ℕ) (f : ℕ → α) : forceN n f = f n := by cases n <;> rfl
theorem Fp.force_eq {α : Type} (x : Fp) (f : Fp → α) : x.force f = f x.norm := by
  unfold Fp.force
  rw [forceN_eq, forceN_eq, forceN_eq]
  rfl

theorem fpS_pos : (0 : ℝ) < fpS := by unfold fpS; norm_num

theorem Fp.norm_mid (x : Fp) : x.norm.mid = x.mid := by
  change ((x.pos - x.neg : ℕ) : ℝ) - ((x.neg - x.pos : ℕ) : ℝ) = (x.pos : ℝ) - x.neg
  rcases Nat.le_total x.pos x.neg with h | h
  · rw [Nat.sub_eq_zero_of_le h, Nat.cast_sub h]; push_cast; ring
  · rw [Nat.sub_eq_zero_of_le h, Nat.cast_sub h]; push_cast; ring

theorem Fp.norm_has {f : Fp} {x : ℝ} (h : f.Has x) : f.norm.Has x := by
  unfold Fp.Has at *
  rw [Fp.norm_mid]
  exact h

theorem Fp.mag_eq (x : Fp) : (x.mag : ℝ) = |x.mid| := by
  change ((x.pos - x.neg + (x.neg - x.pos) : ℕ) : ℝ) = |(x.pos : ℝ) - x.neg|
  rcases Nat.le_total x.pos x.neg with h | h
  · have h' : (x.pos : ℝ) ≤ x.neg := by exact_mod_cast h
    rw [abs_of_nonpos (by linarith), Nat.sub_eq_zero_of_le h, zero_add, Nat.cast_sub h]; ring
  · have h' : (x.neg : ℝ) ≤ x.pos := by exact_mod_cast h
    rw [abs_of_nonneg (by linarith), Nat.sub_eq_zero_of_le h, add_zero, Nat.cast_sub h]

theorem Fp.mid_abs (f : Fp) : |f.mid| ≤ (f.pos : ℝ) + f.neg := by
  unfold Fp.mid
  have h1 : (0 : ℝ) ≤ f.pos := Nat.cast_nonneg _
  have h2 : (0 : ℝ) ≤ f.neg := Nat.cast_nonneg _
  rw [abs_le]
  constructor <;> linarith

theorem natdiv_near (n d : ℕ) : (n : ℝ) / d ≤ ((n / d : ℕ) : ℝ) + 1 := by
  rcases Nat.eq_zero_or_pos d with rfl | hd
  · simp
  · rw [div_le_iff₀ (by exact_mod_cast hd)]
    have := (Nat.lt_div_mul_add (a := n) hd).le
    have h : (n : ℝ) ≤ ((n / d : ℕ) : ℝ) * d + d := by exact_mod_cast this
    linarith

/-- a difference of quotients -/
theorem diff_near (a b d : ℕ) : |((a : ℝ) - b) / d - (((a / d : ℕ) : ℝ) - ((b / d : ℕ) : ℝ))| ≤ 1 := by
  have h1 := natdiv_near a d
  have h2 := Nat.cast_div_le (α := ℝ) (m := a) (n := d)
  have h3 := natdiv_near b d
  have h4 := Nat.cast_div_le (α := ℝ) (m := b) (n := d)
  rw [sub_div, abs_le]
  constructor <;> linarith

theorem Fp.nat_has (n : ℕ) : (Fp.nat n).Has n := by
  simp [Fp.Has, Fp.nat, Fp.mid]

theorem Fp.rat_has (p q : ℕ) : (Fp.rat p q).Has ((p : ℝ) / q) := by
  have h := diff_near (p * fpS) 0 q
  change |(p : ℝ) / q * fpS - (((p * fpS / q : ℕ) : ℝ) - ((0 : ℕ) : ℝ))| ≤ ((1 : ℕ) : ℝ)
  rw [Nat.zero_div] at h
  push_cast at h ⊢
  convert h using 3
  ring

theorem Fp.add_has {f g : Fp} {x y : ℝ} (hf : f.Has x) (hg : g.Has y) : (f.add g).Has (x + y) := by
  have e : (f.add g).mid = f.mid + g.mid := by
    change ((f.pos + g.pos : ℕ) : ℝ) - ((f.neg + g.neg : ℕ) : ℝ) = _
    unfold Fp.mid
    push_cast
    ring
  unfold Fp.Has at *
  rw [e, show (f.add g).rad = f.rad + g.rad from rfl]
  push_cast
  rw [show (x + y) * (fpS : ℝ) - (f.mid + g.mid) = (x * fpS - f.mid) + (y * fpS - g.mid) by ring]
  exact (abs_add_le _ _).trans (add_le_add hf hg)

theorem Fp.sub_has {f g : Fp} {x y : ℝ} (hf : f.Has x) (hg : g.Has y) : (f.sub g).Has (x - y) := by
  have e : (f.sub g).mid = f.mid - g.mid := by
    change ((f.pos + g.neg : ℕ) : ℝ) - ((f.neg + g.pos : ℕ) : ℝ) = _
    unfold Fp.mid
    push_cast
    ring
  unfold Fp.Has at *
  rw [e, show (f.sub g).rad = f.rad + g.rad from rfl]
  push_cast
  rw [show (x - y) * (fpS : ℝ) - (f.mid - g.mid) = (x * fpS - f.mid) - (y * fpS - g.mid) by ring]
  exact (abs_sub _ _).trans (add_le_add hf hg)

theorem Fp.mul_has {f g : Fp} {x y : ℝ} (hf : f.Has x) (hg : g.Has y) : (f.mul g).Has (x * y) := by
  have hS := fpS_pos
  have af := f.mid_abs
  have ag := g.mid_abs
  unfold Fp.Has at *
  have h1 : |f.mid * g.mid / fpS - (f.mul g).mid| ≤ 1 := by
    have h := diff_near (f.pos * g.pos + f.neg * g.neg) (f.pos * g.neg + f.neg * g.pos) fpS
    change |_ - (((((f.pos * g.pos + f.neg * g.neg) / fpS : ℕ) : ℝ)) - (((f.pos * g.neg + f.neg * g.pos) / fpS : ℕ) : ℝ))| ≤ 1
    convert h using 3
    unfold Fp.mid
    push_cast
    ring
  have h2 := natdiv_near ((f.pos + f.neg) * g.rad + (g.pos + g.neg) * f.rad + f.rad * g.rad) fpS
  push_cast at h2
  have h3 : |x * y * (fpS : ℝ) - f.mid * g.mid / fpS| ≤ ((f.pos + f.neg) * g.rad + (g.pos + g.neg) * f.rad + f.rad * g.rad) / fpS := by
    have e : x * y * (fpS : ℝ) - f.mid * g.mid / fpS =
        (f.mid * (y * fpS - g.mid) + g.mid * (x * fpS - f.mid) + (x * fpS - f.mid) * (y * fpS - g.mid)) / fpS := by
      field_simp
      ring
    rw [e, abs_div, abs_of_pos hS]
    gcongr
    refine (abs_add_le _ _).trans (add_le_add ((abs_add_le _ _).trans (add_le_add ?_ ?_)) ?_)
    · rw [abs_mul]; gcongr
    · rw [abs_mul]; gcongr
    · rw [abs_mul]; gcongr
  rw [show (f.mul g).rad = ((f.pos + f.neg) * g.rad + (g.pos + g.neg) * f.rad + f.rad * g.rad) / fpS + 2 from rfl]
  push_cast at h2 ⊢
  have e2 : x * y * (fpS : ℝ) - (f.mul g).mid = (x * y * (fpS : ℝ) - f.mid * g.mid / fpS) + (f.mid * g.mid / fpS - (f.mul g).mid) := by ring
  rw [e2]
  refine (abs_add_le _ _).trans ?_
  linarith

theorem Fp.ok_lt {f : Fp} (h : f.ok = true) : f.rad < f.mag := Nat.ble_eq.mp h

theorem Fp.ok_ne {f : Fp} (h : f.ok = true) {x : ℝ} (hf : f.Has x) : x ≠ 0 := by
  rintro rfl
  have h' := Fp.ok_lt h
  unfold Fp.Has at hf
  rw [zero_mul, zero_sub, abs_neg, ← Fp.mag_eq] at hf
  have : f.mag ≤ f.rad := by exact_mod_cast hf
  omega

theorem Fp.div_has {f g : Fp} {x y : ℝ} (hf : f.Has x) (hg : g.Has y) (ho : g.ok = true) : (f.div g).Has (x / y) := by
  have hS := fpS_pos
  have hy := Fp.ok_ne ho hg
  have ho' := Fp.ok_lt ho
  have g0 : (0 : ℝ) < g.mag := by exact_mod_cast (by omega : 0 < g.mag)
  have hm' : g.mid ≠ 0 := by rw [← abs_pos, ← Fp.mag_eq]; exact g0
  have af := f.mid_abs
  unfold Fp.Has at *
  have h1 : |f.mid * fpS / g.mid - (f.div g).mid| ≤ 1 := by
    have h := diff_near (fpS * (f.pos * g.pos + f.neg * g.neg)) (fpS * (f.pos * g.neg + f.neg * g.pos)) (g.mag * g.mag)
    change |_ - ((((fpS * (f.pos * g.pos + f.neg * g.neg) / (g.mag * g.mag) : ℕ) : ℝ)) -
      ((fpS * (f.pos * g.neg + f.neg * g.pos) / (g.mag * g.mag) : ℕ) : ℝ))| ≤ 1
    convert h using 3
    have e : ((g.mag * g.mag : ℕ) : ℝ) = g.mid * g.mid := by
      push_cast
      rw [Fp.mag_eq, abs_mul_abs_self]
    have n : ((fpS * (f.pos * g.pos + f.neg * g.neg) : ℕ) : ℝ) - ((fpS * (f.pos * g.neg + f.neg * g.pos) : ℕ) : ℝ) = fpS * (f.mid * g.mid) := by
      unfold Fp.mid
      push_cast
      ring
    rw [e, n]
    field_simp
  have h2 := natdiv_near (fpS * (f.rad * g.mag + (f.pos + f.neg) * g.rad)) (g.mag * (g.mag - g.rad))
  have hlt : (g.rad : ℝ) < g.mag := by exact_mod_cast ho'
  have hYlow : (g.mag : ℝ) - g.rad ≤ |y * fpS| := by
    have := abs_sub_abs_le_abs_sub g.mid (y * fpS)
    rw [abs_sub_comm, ← Fp.mag_eq] at this
    linarith
  have hpos : 0 < (g.mag : ℝ) - g.rad := by linarith
  have h3 : |x / y * (fpS : ℝ) - f.mid * fpS / g.mid| ≤ fpS * (f.rad * g.mag + (f.pos + f.neg) * g.rad) / (g.mag * (g.mag - g.rad)) := by
    have e : x / y * (fpS : ℝ) - f.mid * fpS / g.mid = fpS * ((x * fpS - f.mid) * g.mid - f.mid * (y * fpS - g.mid)) / (g.mid * (y * fpS)) := by
      field_simp
      ring
    rw [e, abs_div, abs_mul, abs_mul, abs_of_pos hS, ← Fp.mag_eq]
    have hn : |(x * fpS - f.mid) * g.mid - f.mid * (y * fpS - g.mid)| ≤ f.rad * g.mag + (f.pos + f.neg) * g.rad := by
      refine (abs_sub _ _).trans (add_le_add ?_ ?_)
      · rw [abs_mul, ← Fp.mag_eq]; gcongr
      · rw [abs_mul]; gcongr
    gcongr
  rw [show (f.div g).rad = fpS * (f.rad * g.mag + (f.pos + f.neg) * g.rad) / (g.mag * (g.mag - g.rad)) + 2 from rfl]
  rw [Nat.cast_mul (g.mag), Nat.cast_sub ho'.le] at h2
  push_cast at h2 ⊢
  have e2 : x / y * (fpS : ℝ) - (f.div g).mid = (x / y * (fpS : ℝ) - f.mid * fpS / g.mid) + (f.mid * fpS / g.mid - (f.div g).mid) := by ring
  rw [e2]
  refine (abs_add_le _ _).trans ?_
  linarith

end Pot
