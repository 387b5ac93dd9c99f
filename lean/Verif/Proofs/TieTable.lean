import Mathlib.Algebra.Ring.Nat

/-! # Rounding to nearest even in natural numbers, and a table of the ties along the side `θ = a` -/

namespace Pot

/-- the exponent of the last of 53 bits of `n / d` -/
def rnExp (n d : ℕ) : ℕ := Nat.log2 (n / d) - 52

/-- the significand of `n / d` before rounding -/
def rnQuot (n d : ℕ) : ℕ := n / (d * 2 ^ rnExp n d)

/-- whether the significand is rounded up -/
def rnUp (n d : ℕ) : Bool :=
  let P := d * 2 ^ rnExp n d
  let r := n % P
  decide (P < 2 * r) || (decide (2 * r = P) && decide (rnQuot n d % 2 = 1))

/-- `n / d` rounded to 53 bits, ties to even -/
def rn (n d : ℕ) : ℕ := (if rnUp n d then rnQuot n d + 1 else rnQuot n d) * 2 ^ rnExp n d

/-- `n / d` has at least 53 bits before the point and is not rounded up to a power of two -/
def rnOk (n d : ℕ) : Bool := decide (2 ^ 52 ≤ n / d) && decide (rnQuot n d + 1 < 2 ^ 53)

/-- the significand of `2π` -/
def tA : ℕ := 7074237752028440
/-- the threshold `h*np.sqrt(2)` -/
def tT : ℕ := 10004482972370376
/-- the coordinate of a node `t` steps from the centre -/
def tX (t : ℕ) : ℕ := rn (tA * t) 1
/-- `x/m` for the slope `1 - 2⁻⁵³` -/
def tQ (t : ℕ) : ℕ := rn (tX (t + 2) * 2 ^ 53) (2 ^ 53 - 1)
/-- `x/m + y` -/
def tS (t : ℕ) : ℕ := rn (tQ t + tX t) 1
/-- the foot -/
def tX1 (t : ℕ) : ℕ := tS t / 2
def tY1 (t : ℕ) : ℕ := rn ((2 ^ 53 - 1) * tX1 t) (2 ^ 53)
/-- the components of the distance -/
def tU (t : ℕ) : ℕ := tX (t + 2) - tX1 t
def tW (t : ℕ) : ℕ := tY1 t - tX t
def tD (t : ℕ) : ℕ := rn (rn (tU t ^ 2) 1 + rn (tW t ^ 2) 1) 1

/-- the step is one that `rn` describes and its exponent is at most `c` -/
def tieStep (n d c : ℕ) : Bool := rnOk n d && decide (rnExp n d ≤ c)

/-- all steps of the computation are of this kind -/
def tieSteps (t : ℕ) : Bool :=
  tieStep (tA * (t + 2)) 1 20 && tieStep (tA * t) 1 20 && tieStep (tX (t + 2) * 2 ^ 53) (2 ^ 53 - 1) 20 &&
  tieStep (tQ t + tX t) 1 20 && decide (tS t % 2 = 0) && tieStep ((2 ^ 53 - 1) * tX1 t) (2 ^ 53) 20 &&
  decide (tX1 t < tX (t + 2)) && decide (tX t < tY1 t) && decide (tU t < 2 ^ 53) && decide (tW t < 2 ^ 53) &&
  tieStep (tU t ^ 2) 1 60 && tieStep (tW t ^ 2) 1 60 && tieStep (rn (tU t ^ 2) 1 + rn (tW t ^ 2) 1) 1 60 && decide (40 ≤ rnExp (tU t ^ 2) 1)
  && decide (40 ≤ rnExp (tW t ^ 2) 1) && decide (40 ≤ rnExp (rn (tU t ^ 2) 1 + rn (tW t ^ 2) 1) 1)

/-- and the result passes the test -/
def tieOk (t : ℕ) : Bool := tieSteps t && decide (tD t < (tT + 1) ^ 2)

/-- `p` holds below `n` -/
noncomputable def allBelow (p : ℕ → Bool) (n : ℕ) : Bool := Nat.rec true (fun k ih => Bool.rec false ih (p k)) n

theorem allBelow_spec {p : ℕ → Bool} {n : ℕ} (h : allBelow p n = true) {k : ℕ} (hk : k < n) : p k = true := by
  induction n with
  | zero => omega
  | succ n ih =>
    change Bool.rec false (allBelow p n) (p n) = true at h
    cases hp : p n
    · rw [hp] at h; cases h
    · rw [hp] at h
      rcases Nat.lt_succ_iff_lt_or_eq.1 hk with c | rfl
      · exact ih h c
      · exact hp

/-! ## The same with every intermediate value evaluated before it is used, for the kernel -/

/-- `f n`, with `n` evaluated first -/
noncomputable def force (n : ℕ) (f : ℕ → Bool) : Bool := Nat.rec (f 0) (fun k _ => f (k + 1)) n

theorem force_eq (n : ℕ) (f : ℕ → Bool) : force n f = f n := by cases n <;> rfl

/-- a step: its conditions, and what is done with the exponent and the result -/
noncomputable def stepF (n d c : ℕ) (f : ℕ → ℕ → Bool) : Bool :=
  force n fun n => force d fun d => force (n / d) fun Q => force (Nat.log2 Q - 52) fun e => force (d * 2 ^ e) fun P =>
    force (n / P) fun q => force (n % P) fun r =>
      (decide (2 ^ 52 ≤ Q) && decide (q + 1 < 2 ^ 53)) && decide (e ≤ c) &&
        force ((if decide (P < 2 * r) || (decide (2 * r = P) && decide (q % 2 = 1)) then q + 1 else q) * 2 ^ e) fun v => f e v

theorem stepF_eq (n d c : ℕ) (f : ℕ → ℕ → Bool) : stepF n d c f = (tieStep n d c && f (rnExp n d) (rn n d)) := by
  simp only [stepF, force_eq]
  rfl

noncomputable def tieOkF (t : ℕ) : Bool :=
  force t fun t => force (t + 2) fun t2 =>
    stepF (tA * t2) 1 20 fun _ x2 => stepF (tA * t) 1 20 fun _ x0 => stepF (x2 * 2 ^ 53) (2 ^ 53 - 1) 20 fun _ q =>
      stepF (q + x0) 1 20 fun _ s => decide (s % 2 = 0) && force (s / 2) fun x1 =>
        stepF ((2 ^ 53 - 1) * x1) (2 ^ 53) 20 fun _ y1 => decide (x1 < x2) && decide (x0 < y1) &&
          force (x2 - x1) fun u => force (y1 - x0) fun w => decide (u < 2 ^ 53) && decide (w < 2 ^ 53) &&
            stepF (u ^ 2) 1 60 fun eu su => stepF (w ^ 2) 1 60 fun ew sw => stepF (su + sw) 1 60 fun ed d =>
              decide (40 ≤ eu) && decide (40 ≤ ew) && decide (40 ≤ ed) && decide (d < (tT + 1) ^ 2)

theorem tieOkF_eq {t : ℕ} (h : tieOkF t = true) : tieOk t = true := by
  simp only [tieOkF, stepF_eq, force_eq, Bool.and_eq_true] at h
  obtain ⟨h1, h2, h3, h4, h5, h6, ⟨h7, h8⟩, ⟨h9, h10⟩, h11, h12, h13, ⟨⟨h14, h15⟩, h16⟩, h17⟩ := h
  simp only [tieOk, tieSteps, Bool.and_eq_true]
  exact ⟨⟨⟨⟨⟨⟨⟨⟨⟨⟨⟨⟨⟨⟨⟨⟨h1, h2⟩, h3⟩, h4⟩, h5⟩, h6⟩, h7⟩, h8⟩, h9⟩, h10⟩, h11⟩, h12⟩, h13⟩, h14⟩, h15⟩, h16⟩, h17⟩

/-! In blocks of 250, so that the kernel forgets what it has seen after each of them. -/

theorem tie_table0 : allBelow (fun j => tieOkF (2 + j)) 250 = true := by decide +kernel
theorem tie_table1 : allBelow (fun j => tieOkF (252 + j)) 250 = true := by decide +kernel
theorem tie_table2 : allBelow (fun j => tieOkF (502 + j)) 250 = true := by decide +kernel
theorem tie_table3 : allBelow (fun j => tieOkF (752 + j)) 250 = true := by decide +kernel
theorem tie_table4 : allBelow (fun j => tieOkF (1002 + j)) 250 = true := by decide +kernel
theorem tie_table5 : allBelow (fun j => tieOkF (1252 + j)) 250 = true := by decide +kernel
theorem tie_table6 : allBelow (fun j => tieOkF (1502 + j)) 250 = true := by decide +kernel
theorem tie_table7 : allBelow (fun j => tieOkF (1752 + j)) 250 = true := by decide +kernel
theorem tie_table8 : allBelow (fun j => tieOkF (2002 + j)) 250 = true := by decide +kernel
theorem tie_table9 : allBelow (fun j => tieOkF (2252 + j)) 250 = true := by decide +kernel
theorem tie_table10 : allBelow (fun j => tieOkF (2502 + j)) 250 = true := by decide +kernel
theorem tie_table11 : allBelow (fun j => tieOkF (2752 + j)) 250 = true := by decide +kernel
theorem tie_table12 : allBelow (fun j => tieOkF (3002 + j)) 250 = true := by decide +kernel
theorem tie_table13 : allBelow (fun j => tieOkF (3252 + j)) 250 = true := by decide +kernel
theorem tie_table14 : allBelow (fun j => tieOkF (3502 + j)) 250 = true := by decide +kernel
theorem tie_table15 : allBelow (fun j => tieOkF (3752 + j)) 250 = true := by decide +kernel
theorem tie_table16 : allBelow (fun j => tieOkF (4002 + j)) 250 = true := by decide +kernel
theorem tie_table17 : allBelow (fun j => tieOkF (4252 + j)) 250 = true := by decide +kernel
theorem tie_table18 : allBelow (fun j => tieOkF (4502 + j)) 250 = true := by decide +kernel
theorem tie_table19 : allBelow (fun j => tieOkF (4752 + j)) 250 = true := by decide +kernel
theorem tie_table20 : allBelow (fun j => tieOkF (5002 + j)) 250 = true := by decide +kernel
theorem tie_table21 : allBelow (fun j => tieOkF (5252 + j)) 250 = true := by decide +kernel
theorem tie_table22 : allBelow (fun j => tieOkF (5502 + j)) 250 = true := by decide +kernel
theorem tie_table23 : allBelow (fun j => tieOkF (5752 + j)) 250 = true := by decide +kernel
theorem tie_table24 : allBelow (fun j => tieOkF (6002 + j)) 250 = true := by decide +kernel
theorem tie_table25 : allBelow (fun j => tieOkF (6252 + j)) 250 = true := by decide +kernel
theorem tie_table26 : allBelow (fun j => tieOkF (6502 + j)) 250 = true := by decide +kernel
theorem tie_table27 : allBelow (fun j => tieOkF (6752 + j)) 250 = true := by decide +kernel
theorem tie_table28 : allBelow (fun j => tieOkF (7002 + j)) 250 = true := by decide +kernel
theorem tie_table29 : allBelow (fun j => tieOkF (7252 + j)) 250 = true := by decide +kernel
theorem tie_table30 : allBelow (fun j => tieOkF (7502 + j)) 250 = true := by decide +kernel
theorem tie_table31 : allBelow (fun j => tieOkF (7752 + j)) 250 = true := by decide +kernel
theorem tie_table32 : allBelow (fun j => tieOkF (8002 + j)) 250 = true := by decide +kernel
theorem tie_table33 : allBelow (fun j => tieOkF (8252 + j)) 250 = true := by decide +kernel

theorem tie_block {a t : ℕ} (h : allBelow (fun j => tieOkF (a + j)) 250 = true) (h1 : a ≤ t) (h2 : t < a + 250) :
    tieOk t = true := by
  have := allBelow_spec h (k := t - a) (by omega)
  rw [show a + (t - a) = t by omega] at this
  exact tieOkF_eq this

theorem tie_ok {t : ℕ} (h1 : 2 ≤ t) (h2 : t ≤ 8501) : tieOk t = true := by
  rcases lt_or_ge t 252 with h | h1
  · exact tie_block tie_table0 h1 h
  rcases lt_or_ge t 502 with h | h1
  · exact tie_block tie_table1 (by assumption) h
  rcases lt_or_ge t 752 with h | h1
  · exact tie_block tie_table2 (by assumption) h
  rcases lt_or_ge t 1002 with h | h1
  · exact tie_block tie_table3 (by assumption) h
  rcases lt_or_ge t 1252 with h | h1
  · exact tie_block tie_table4 (by assumption) h
  rcases lt_or_ge t 1502 with h | h1
  · exact tie_block tie_table5 (by assumption) h
  rcases lt_or_ge t 1752 with h | h1
  · exact tie_block tie_table6 (by assumption) h
  rcases lt_or_ge t 2002 with h | h1
  · exact tie_block tie_table7 (by assumption) h
  rcases lt_or_ge t 2252 with h | h1
  · exact tie_block tie_table8 (by assumption) h
  rcases lt_or_ge t 2502 with h | h1
  · exact tie_block tie_table9 (by assumption) h
  rcases lt_or_ge t 2752 with h | h1
  · exact tie_block tie_table10 (by assumption) h
  rcases lt_or_ge t 3002 with h | h1
  · exact tie_block tie_table11 (by assumption) h
  rcases lt_or_ge t 3252 with h | h1
  · exact tie_block tie_table12 (by assumption) h
  rcases lt_or_ge t 3502 with h | h1
  · exact tie_block tie_table13 (by assumption) h
  rcases lt_or_ge t 3752 with h | h1
  · exact tie_block tie_table14 (by assumption) h
  rcases lt_or_ge t 4002 with h | h1
  · exact tie_block tie_table15 (by assumption) h
  rcases lt_or_ge t 4252 with h | h1
  · exact tie_block tie_table16 (by assumption) h
  rcases lt_or_ge t 4502 with h | h1
  · exact tie_block tie_table17 (by assumption) h
  rcases lt_or_ge t 4752 with h | h1
  · exact tie_block tie_table18 (by assumption) h
  rcases lt_or_ge t 5002 with h | h1
  · exact tie_block tie_table19 (by assumption) h
  rcases lt_or_ge t 5252 with h | h1
  · exact tie_block tie_table20 (by assumption) h
  rcases lt_or_ge t 5502 with h | h1
  · exact tie_block tie_table21 (by assumption) h
  rcases lt_or_ge t 5752 with h | h1
  · exact tie_block tie_table22 (by assumption) h
  rcases lt_or_ge t 6002 with h | h1
  · exact tie_block tie_table23 (by assumption) h
  rcases lt_or_ge t 6252 with h | h1
  · exact tie_block tie_table24 (by assumption) h
  rcases lt_or_ge t 6502 with h | h1
  · exact tie_block tie_table25 (by assumption) h
  rcases lt_or_ge t 6752 with h | h1
  · exact tie_block tie_table26 (by assumption) h
  rcases lt_or_ge t 7002 with h | h1
  · exact tie_block tie_table27 (by assumption) h
  rcases lt_or_ge t 7252 with h | h1
  · exact tie_block tie_table28 (by assumption) h
  rcases lt_or_ge t 7502 with h | h1
  · exact tie_block tie_table29 (by assumption) h
  rcases lt_or_ge t 7752 with h | h1
  · exact tie_block tie_table30 (by assumption) h
  rcases lt_or_ge t 8002 with h | h1
  · exact tie_block tie_table31 (by assumption) h
  rcases lt_or_ge t 8252 with h | h1
  · exact tie_block tie_table32 (by assumption) h
  exact tie_block tie_table33 (by assumption) (by omega)

end Pot
