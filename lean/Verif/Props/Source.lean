import Verif.Props.Run
import Verif.Spec.Source

/-! # The source term: C25, C26 -/

namespace Pot
open Spec Finset Real

/-! ## The array `self.f` -/

theorem arrSet_full {n : ℕ} (w : Arr (n + 2)) {q : Node} (h : 0 ≤ q.1 ∧ q.1 ≤ n + 1 ∧ 0 ≤ q.2 ∧ q.2 ≤ n + 1) (x : ℂ) :
    ∃ w', arrSet w q.1 q.2 x = .ok w' ∧
      ∀ p : Node, fullNode w' p.1 p.2 = if p = q then x else fullNode w p.1 p.2 := by
  obtain ⟨h1, h2, h3, h4⟩ := h
  unfold arrSet pyIdx
  rw [dif_pos ⟨h1, by push_cast; omega⟩, dif_pos ⟨h3, by push_cast; omega⟩]
  refine ⟨_, rfl, fun p => ?_⟩
  unfold fullNode
  by_cases hp : 0 ≤ p.1 ∧ p.1 ≤ n + 1 ∧ 0 ≤ p.2 ∧ p.2 ≤ n + 1
  · rw [dif_pos hp, dif_pos hp]
    obtain ⟨p1, p2, p3, p4⟩ := hp
    by_cases hpq : p = q
    · rw [if_pos hpq]; subst hpq; simp
    · rw [if_neg hpq]
      refine if_neg ?_
      rintro ⟨e1, e2⟩
      simp only [Fin.mk.injEq] at e1 e2
      exact hpq (Prod.ext (by omega) (by omega))
  · rw [dif_neg hp, dif_neg hp, if_neg]
    rintro rfl; exact hp ⟨h1, h2, h3, h4⟩

theorem setLoop {n : ℕ} (v : Node → ℂ) (L : List Node)
    (h : ∀ q ∈ L, 0 ≤ q.1 ∧ q.1 ≤ n + 1 ∧ 0 ≤ q.2 ∧ q.2 ≤ n + 1) (w : Arr (n + 2)) :
    ∃ w', L.foldlM (init := w) (fun f nd => arrSet f nd.1 nd.2 (v nd)) = .ok w' ∧
      ∀ p : Node, fullNode w' p.1 p.2 = if p ∈ L then v p else fullNode w p.1 p.2 := by
  induction L generalizing w with
  | nil => exact ⟨w, rfl, fun p => by simp⟩
  | cons x L ih =>
    obtain ⟨w1, e1, h1⟩ := arrSet_full w (h x (List.mem_cons_self ..)) (v x)
    obtain ⟨w2, e2, h2⟩ := ih (fun q hq => h q (List.mem_cons_of_mem _ hq)) w1
    refine ⟨w2, by rw [List.foldlM_cons, e1, ok_bind, e2], fun p => ?_⟩
    rw [h2, h1]
    by_cases hp : p ∈ L
    · rw [if_pos hp, if_pos (List.mem_cons_of_mem _ hp)]
    · rw [if_neg hp]
      by_cases hx : p = x
      · subst hx; simp
      · rw [if_neg hx, if_neg (by simp [hx, hp])]

/-! ## One value -/

theorem norm2_ne_zero {v : ℝ × ℝ} (h : v ≠ (0, 0)) : norm2 v ≠ 0 := by
  unfold norm2
  intro h0
  rw [Real.sqrt_eq_zero (by positivity)] at h0
  apply h
  have h1 : v.1 ^ 2 = 0 := by nlinarith [sq_nonneg v.1, sq_nonneg v.2]
  have h2 : v.2 ^ 2 = 0 := by nlinarith [sq_nonneg v.1, sq_nonneg v.2]
  exact Prod.ext (pow_eq_zero_iff (two_ne_zero) |>.1 h1) (pow_eq_zero_iff (two_ne_zero) |>.1 h2)

/-- **C26** the value written at a node is the second-order Taylor polynomial at the foot point; a zero direction
gives nan. -/
theorem C26_value (src : Source) (x y : ℝ) (p : ℝ × ℝ) {g : ℂ × ℂ} {H : (ℂ × ℂ) × (ℂ × ℂ)}
    (hg : src.grad p.1 p.2 = .ok g) (hH : src.hess p.1 p.2 = .ok H) :
    (p = (x, y) → extendFValue src x y p.1 p.2 = .error .nanValue) ∧
    (p ≠ (x, y) → extendFValue src x y p.1 p.2 = .ok (taylor2 (src.f p.1 p.2) g H p (x, y))) := by
  constructor
  · rintro rfl
    unfold extendFValue normalize norm2
    simp
  · intro hp
    have hne : norm2 (x - p.1, y - p.2) ≠ 0 := by
      apply norm2_ne_zero
      intro h
      simp only [Prod.mk.injEq] at h
      exact hp (Prod.ext (by simp only; linarith [h.1]) (by simp only; linarith [h.2]))
    unfold extendFValue normalize
    simp only []
    rw [if_neg hne, pure_eq_ok, ok_bind, hg, ok_bind, hH, ok_bind, pure_eq_ok]
    congr 1
    have hc : (norm2 (x - p.1, y - p.2) : ℂ) ≠ 0 := by exact_mod_cast hne
    unfold dot2 hdot dot2 taylor2
    push_cast
    simp only [Nat.factorial]
    field_simp
    push_cast
    ring

/-! ## The foot point -/

theorem extendFSid_eq {s : PSolver} {nd : Node} (bb : Bool)
    (h1 : nd ∈ s.G.allGamma 0 → ∃ et, getEtype s.e s.cache 0 nd = .ok et ∧ bb = decide (et = .standard))
    (h2 : nd ∉ s.G.allGamma 0 → bb = false) :
    extendFSid s nd = .ok (if bb then 0 else if (s.e.polar nd).1 < s.e.evalR (s.e.polar nd).2 then
      if (s.e.polar nd).2 ≥ 2 * π then 1 else 2 else 0) := by
  unfold extendFSid
  simp only []
  by_cases h : nd ∈ s.G.allGamma 0
  · obtain ⟨et, he, hb⟩ := h1 h
    rw [if_pos h, he, ok_bind, pure_eq_ok, ok_bind, ← hb]
    split_ifs <;> rfl
  · rw [if_neg h, pure_eq_ok, ok_bind, h2 h]
    split_ifs <;> first | rfl | (exfalso; simp_all)

theorem extendFSid_inv {s : PSolver} {nd : Node} {sid : Fin 3} (h : extendFSid s nd = .ok sid) :
    ∃ bb : Bool, (bb = true → nd ∈ s.G.allGamma 0) ∧
      sid = if bb then 0 else if (s.e.polar nd).1 < s.e.evalR (s.e.polar nd).2 then
        if (s.e.polar nd).2 ≥ 2 * π then 1 else 2 else 0 := by
  by_cases hm : nd ∈ s.G.allGamma 0
  · rcases he : getEtype s.e s.cache 0 nd with er | et
    · exfalso
      unfold extendFSid at h
      simp only [] at h
      rw [if_pos hm, he, error_bind] at h
      cases h
    · have := extendFSid_eq (s := s) (nd := nd) (decide (et = .standard)) (fun _ => ⟨et, he, rfl⟩)
        (fun h => absurd hm h)
      rw [h] at this
      exact ⟨_, fun _ => hm, Except.ok.inj this⟩
  · have := extendFSid_eq (s := s) (nd := nd) false (fun h => absurd h hm) (fun _ => rfl)
    rw [h] at this
    exact ⟨false, fun h => by simp at h, Except.ok.inj this⟩

/-- **C26** the foot point used for a node outside the closed domain is never the node itself. -/
theorem C26_foot {s : PSolver} {a R : ℝ} {r : ℝ → ℝ} (ea : s.e.a = a) (eR : s.e.R = R) (er : s.e.evalR = r)
    (ha : 0 < a) (haπ : a < π) (hp : ∀ t, a ≤ t → t ≤ 2 * π → 0 ≤ r t) (hra : r a = R) (hr2 : r (2 * π) = R) {nd : Node}
    (hout : s.e.coord nd ∉ Domain a r) {p : ℝ × ℝ} (h : extendFPoint s nd = .ok (some p)) :
    p ≠ s.e.coord nd := by
  subst ea eR er
  have hpi := pi_pos
  obtain ⟨p1, p2, p3, p4⟩ := env_polar s.e ha (by linarith) nd
  have horigin : ((0, 0) : ℝ × ℝ) ∈ Domain s.e.a s.e.evalR :=
    ⟨0, 2 * π, by linarith, le_rfl, le_rfl, hp _ (by linarith) le_rfl, by simp [polarPoint]⟩
  have hcurve : ∀ t, s.e.a ≤ t → t ≤ 2 * π → polarPoint (s.e.evalR t) t ∈ Domain s.e.a s.e.evalR :=
    fun t h1 h2 => ⟨_, t, h1, h2, hp t h1 h2, le_rfl, rfl⟩
  have hz : (s.e.polar nd).1 ≠ 0 := by
    intro h0
    apply hout
    rw [← p1, h0]
    have : polarPoint 0 (s.e.polar nd).2 = (0, 0) := by simp [polarPoint]
    rw [this]; exact horigin
  have hpos := lt_of_le_of_ne p2 (Ne.symm hz)
  unfold extendFPoint at h
  simp only [] at h
  rcases hsid : extendFSid s nd with er | sid
  · rw [hsid, error_bind] at h; cases h
  rw [hsid, ok_bind] at h
  rcases het : getEtype s.e s.cache sid nd with er | et
  · rw [het, error_bind] at h; cases h
  rw [het, ok_bind] at h
  -- the segment choice
  have hside : sid ≠ 0 → (s.e.polar nd).1 < s.e.evalR (s.e.polar nd).2 ∧
      (sid = 1 → 2 * π ≤ (s.e.polar nd).2) ∧ (sid ≠ 1 → (s.e.polar nd).2 < 2 * π) := by
    intro h0
    obtain ⟨bb, -, hb⟩ := extendFSid_inv hsid
    split_ifs at hb with c1 c2 c3
    · exact absurd hb h0
    · exact ⟨c2, fun _ => c3, fun h => absurd hb h⟩
    · refine ⟨c2, fun h => ?_, fun _ => not_le.1 c3⟩
      rw [hb] at h; exact absurd h (by decide)
    · exact absurd hb h0
  by_cases c1 : sid = 1
  · rw [if_pos c1, pure_eq_ok] at h
    obtain ⟨k1, k2, -⟩ := hside (by rw [c1]; decide)
    have h' := Option.some.inj (Except.ok.inj h)
    intro heq
    have hy : (s.e.coord nd).2 = 0 := by rw [← heq, ← h']
    have hy' : (s.e.polar nd).1 * sin (s.e.polar nd).2 = 0 := by
      rw [← hy, ← p1]; rfl
    have hs : sin (s.e.polar nd).2 = 0 := (mul_eq_zero.1 hy').resolve_left hz
    have h2 := k2 c1
    have : (s.e.polar nd).2 = 2 * π := by
      by_contra hne
      have hlt : 0 < (s.e.polar nd).2 - 2 * π := by
        have := lt_of_le_of_ne h2 (Ne.symm hne); linarith
      have := sin_pos_of_pos_of_lt_pi hlt (by linarith)
      rw [sin_sub_two_pi] at this
      linarith
    apply hout
    rw [← p1]
    exact ⟨_, _, by rw [this]; linarith, this.le, p2, k1.le, rfl⟩
  · rw [if_neg c1] at h
    by_cases c2 : sid = 2
    · rw [if_pos c2, grp_ok, ok_bind, pure_eq_ok] at h
      obtain ⟨k1, -, k2⟩ := hside (by rw [c2]; decide)
      have h' := Option.some.inj (Except.ok.inj h)
      rw [getRadiusPoint_eq _ _ _ ha haπ] at h'
      intro heq
      have hlt := k2 c1
      have hta : (s.e.polar nd).2 < s.e.a := by
        by_contra hge
        exact hout (by rw [← p1]; exact ⟨_, _, not_lt.1 hge, hlt.le, p2, k1.le, rfl⟩)
      have hx : (s.e.coord nd).1 = (s.e.polar nd).1 * cos (s.e.polar nd).2 := by rw [← p1]; rfl
      have hy : (s.e.coord nd).2 = (s.e.polar nd).1 * sin (s.e.polar nd).2 := by rw [← p1]; rfl
      have hon : (s.e.coord nd).1 * sin s.e.a - (s.e.coord nd).2 * cos s.e.a = 0 := by
        rw [← heq, ← h']
        simp only [polarPoint]
        ring
      have hsin : 0 < sin (s.e.a - (s.e.polar nd).2) :=
        sin_pos_of_pos_of_lt_pi (by linarith) (by linarith)
      rw [sin_sub] at hsin
      rw [hx, hy] at hon
      have : (s.e.polar nd).1 * (sin s.e.a * cos (s.e.polar nd).2 - cos s.e.a * sin (s.e.polar nd).2) = 0 := by
        linarith
      rcases mul_eq_zero.1 this with h0 | h0
      · exact hz h0
      · linarith
    · rw [if_neg c2] at h
      have c0 : sid = 0 := by
        fin_cases sid
        · rfl
        · exact absurd rfl c1
        · exact absurd rfl c2
      subst c0
      rcases hc : s.cache nd with _ | _ | c
      · rw [hc] at h
        simp only [pure_eq_ok] at h
        cases h
      · rw [hc] at h
        cases h
      · rw [hc] at h
        simp only [] at h
        unfold getEtype at het
        simp only [if_true, hc, pure_eq_ok] at het
        have het := Except.ok.inj het
        intro heq
        apply hout
        rw [← heq]
        cases et with
        | standard =>
          simp only [pure_eq_ok] at h
          have h' := Option.some.inj (Except.ok.inj h)
          rw [← h']
          split_ifs at het with k1 k2
          exact hcurve c.2 (not_lt.1 k2) (not_lt.1 k1)
        | left =>
          simp only [pure_eq_ok] at h
          have h' := Option.some.inj (Except.ok.inj h)
          rw [← h', ← hra]
          exact hcurve s.e.a le_rfl (by linarith)
        | right =>
          simp only [pure_eq_ok] at h
          have h' := Option.some.inj (Except.ok.inj h)
          rw [← h']
          have := hcurve (2 * π) (by linarith) le_rfl
          rw [hr2] at this
          simpa [polarPoint] using this

/-- … nor the origin. -/
theorem C26_foot_ne_zero {s : PSolver} {a R : ℝ} {r : ℝ → ℝ} (ea : s.e.a = a) (eR : s.e.R = R) (er : s.e.evalR = r)
    (ha : 0 < a) (haπ : a < π) (hp : ∀ t, a ≤ t → t ≤ 2 * π → 0 < r t) (hra : r a = R) {nd : Node}
    (hout : s.e.coord nd ∉ Domain a r) {p : ℝ × ℝ} (h : extendFPoint s nd = .ok (some p)) : p ≠ (0, 0) := by
  subst ea eR er
  have hpi := pi_pos
  have hR : 0 < s.e.R := by rw [← hra]; exact hp _ le_rfl (by linarith)
  obtain ⟨p1, p2, p3, p4⟩ := env_polar s.e ha (by linarith) nd
  have hpol : ∀ {ρ t : ℝ}, 0 < ρ → polarPoint ρ t ≠ (0, 0) := by
    intro ρ t hρ hc
    have e1 := (Prod.ext_iff.1 hc).1
    have e2 := (Prod.ext_iff.1 hc).2
    simp only [polarPoint] at e1 e2
    have h1 := sin_sq_add_cos_sq t
    have : ρ ^ 2 = 0 := by linear_combination ρ * cos t * e1 + ρ * sin t * e2 - ρ ^ 2 * h1
    exact hρ.ne' (pow_eq_zero_iff (by norm_num) |>.1 this)
  have hz : (s.e.polar nd).1 ≠ 0 := by
    intro h0
    apply hout
    rw [← p1, h0]
    exact ⟨0, 2 * π, by linarith, le_rfl, le_rfl, (hp _ (by linarith) le_rfl).le, by simp [polarPoint]⟩
  have hpos := lt_of_le_of_ne p2 (Ne.symm hz)
  have hx : (s.e.coord nd).1 = (s.e.polar nd).1 * cos (s.e.polar nd).2 := by rw [← p1]; rfl
  have hy : (s.e.coord nd).2 = (s.e.polar nd).1 * sin (s.e.polar nd).2 := by rw [← p1]; rfl
  unfold extendFPoint at h
  simp only [] at h
  rcases hsid : extendFSid s nd with er | sid
  · rw [hsid, error_bind] at h; cases h
  rw [hsid, ok_bind] at h
  rcases het : getEtype s.e s.cache sid nd with er | et
  · rw [het, error_bind] at h; cases h
  rw [het, ok_bind] at h
  have hside : sid ≠ 0 → (s.e.polar nd).1 < s.e.evalR (s.e.polar nd).2 ∧
      (sid = 1 → 2 * π ≤ (s.e.polar nd).2) ∧ (sid ≠ 1 → (s.e.polar nd).2 < 2 * π) := by
    intro h0
    obtain ⟨bb, -, hb⟩ := extendFSid_inv hsid
    split_ifs at hb with c1 c2 c3
    · exact absurd hb h0
    · exact ⟨c2, fun _ => c3, fun h => absurd hb h⟩
    · refine ⟨c2, fun h => ?_, fun _ => not_le.1 c3⟩
      rw [hb] at h; exact absurd h (by decide)
    · exact absurd hb h0
  by_cases c1 : sid = 1
  · rw [if_pos c1, pure_eq_ok] at h
    obtain ⟨k1, k2, -⟩ := hside (by rw [c1]; decide)
    have h2 := k2 c1
    have h' := Option.some.inj (Except.ok.inj h)
    have hcos : 0 < cos (s.e.polar nd).2 := by
      rw [← cos_sub_two_pi]
      exact cos_pos_of_mem_Ioo ⟨by linarith, by linarith⟩
    intro hc
    rw [← h'] at hc
    have := (Prod.ext_iff.1 hc).1
    simp only at this
    rw [hx] at this
    exact (mul_pos hpos hcos).ne' this
  · rw [if_neg c1] at h
    by_cases c2 : sid = 2
    · rw [if_pos c2, grp_ok, ok_bind, pure_eq_ok] at h
      obtain ⟨k1, -, k2⟩ := hside (by rw [c2]; decide)
      have h' := Option.some.inj (Except.ok.inj h)
      rw [getRadiusPoint_eq _ _ _ ha haπ] at h'
      have hlt := k2 c1
      have hta : (s.e.polar nd).2 < s.e.a := by
        by_contra hge
        exact hout (by rw [← p1]; exact ⟨_, _, not_lt.1 hge, hlt.le, p2, k1.le, rfl⟩)
      have hcos : 0 < cos (s.e.a - (s.e.polar nd).2) := cos_pos_of_mem_Ioo ⟨by linarith, by linarith⟩
      rw [← h', hx, hy]
      apply hpol
      have : (s.e.polar nd).1 * cos (s.e.polar nd).2 * cos s.e.a + (s.e.polar nd).1 * sin (s.e.polar nd).2 * sin s.e.a =
          (s.e.polar nd).1 * cos (s.e.a - (s.e.polar nd).2) := by rw [cos_sub]; ring
      rw [this]
      exact mul_pos hpos hcos
    · rw [if_neg c2] at h
      have c0 : sid = 0 := by
        fin_cases sid
        · rfl
        · exact absurd rfl c1
        · exact absurd rfl c2
      subst c0
      rcases hc : s.cache nd with _ | _ | c
      · rw [hc] at h
        simp only [pure_eq_ok] at h
        cases h
      · rw [hc] at h
        cases h
      · rw [hc] at h
        simp only [] at h
        unfold getEtype at het
        simp only [if_true, hc, pure_eq_ok] at het
        have het := Except.ok.inj het
        cases et with
        | standard =>
          simp only [pure_eq_ok] at h
          have h' := Option.some.inj (Except.ok.inj h)
          rw [← h']
          split_ifs at het with k1 k2
          exact hpol (hp c.2 (not_lt.1 k2) (not_lt.1 k1))
        | left =>
          simp only [pure_eq_ok] at h
          have h' := Option.some.inj (Except.ok.inj h)
          rw [← h']
          exact hpol hR
        | right =>
          simp only [pure_eq_ok] at h
          have h' := Option.some.inj (Except.ok.inj h)
          rw [← h']
          exact fun hc => hR.ne' (Prod.ext_iff.1 hc).1

/-! ## Circular arcs: every foot point is found -/

/-- a point beyond the arc is within `√2` times its distance to any point of the domain of the arc -/
theorem arc_near_sq {R ρ q C : ℝ} (hR : 0 < R) (hρ : R ≤ ρ) (hq0 : 0 ≤ q) (hq : q ≤ R) (hC0 : 0 ≤ C) (hC1 : C ≤ 1) :
    ρ ^ 2 + R ^ 2 - 2 * ρ * R * C ≤ 2 * (ρ ^ 2 + q ^ 2 - 2 * ρ * q * C) := by
  rcases le_total (ρ * C) R with h | h
  · have h1 : (R - ρ * C) ^ 2 ≤ ρ ^ 2 * (1 - C ^ 2) := by
      have a1 : R - ρ * C ≤ ρ * (1 - C) := by nlinarith
      have a2 : 0 ≤ R - ρ * C := by linarith
      have a3 : (R - ρ * C) ^ 2 ≤ (ρ * (1 - C)) ^ 2 := by
        apply pow_le_pow_left₀ a2 a1
      have a4 : (ρ * (1 - C)) ^ 2 ≤ ρ ^ 2 * (1 - C ^ 2) := by
        have : ρ ^ 2 * (1 - C ^ 2) - (ρ * (1 - C)) ^ 2 = ρ ^ 2 * (2 * C * (1 - C)) := by ring
        have : 0 ≤ ρ ^ 2 * (2 * C * (1 - C)) := by
          have := sub_nonneg.2 hC1
          positivity
        linarith
      linarith
    nlinarith [sq_nonneg (q - ρ * C)]
  · have h1 : 0 ≤ (R - q) * (2 * ρ * C - R - q) := mul_nonneg (by linarith) (by nlinarith)
    have h2 : 0 ≤ ρ ^ 2 + q ^ 2 - 2 * ρ * q * C := by nlinarith [sq_nonneg (ρ - q), mul_nonneg hq0 (by linarith : 0 ≤ ρ)]
    nlinarith

theorem arc_near {a R ρ t q t' : ℝ} (ha : 0 < a) (haπ : a < π) (hR : 0 < R) (hρ : R ≤ ρ) (h1 : a / 2 ≤ t)
    (h2 : t < 2 * π + a / 2) (hq0 : 0 ≤ q) (hq : q ≤ R) (h3 : a ≤ t') (h4 : t' ≤ 2 * π) :
    ∃ x ∈ Segment a R (fun _ => R) 0,
      dist2 (polarPoint ρ t) x ≤ √2 * dist2 (polarPoint ρ t) (polarPoint q t') := by
  have hpi := pi_pos
  have key : ∀ c, a ≤ c → c ≤ 2 * π → 0 ≤ cos (t - c) → cos (t - t') ≤ cos (t - c) →
      ∃ x ∈ Segment a R (fun _ => R) 0,
        dist2 (polarPoint ρ t) x ≤ √2 * dist2 (polarPoint ρ t) (polarPoint q t') := by
    intro c hc1 hc2 hc0 hcc
    refine ⟨polarPoint R c, ⟨c, hc1, hc2, rfl⟩, ?_⟩
    unfold dist2
    rw [← Real.sqrt_mul (by norm_num)]
    apply Real.sqrt_le_sqrt
    simp only [polarPoint]
    rw [dist_sq_polar, dist_sq_polar]
    have := arc_near_sq hR hρ hq0 hq hc0 (cos_le_one (t - c))
    have h5 : 2 * ρ * q * cos (t - t') ≤ 2 * ρ * q * cos (t - c) :=
      mul_le_mul_of_nonneg_left hcc (by have : 0 ≤ ρ := by linarith
                                        positivity)
    linarith
  rcases lt_or_ge (2 * π) t with ht | ht
  · refine key (2 * π) (by linarith) le_rfl ?_ ?_
    · exact cos_nonneg_of_neg_pi_div_two_le_of_le (by linarith) (by linarith)
    · exact cos_le_of_mem (by linarith) (by linarith) (by linarith)
  · rcases lt_or_ge t a with ht' | ht'
    · refine key a le_rfl (by linarith) ?_ ?_
      · exact cos_nonneg_of_neg_pi_div_two_le_of_le (by linarith) (by linarith)
      · rw [← cos_neg (t - t'), ← cos_neg (t - a)]
        exact cos_le_of_mem (by linarith) (by linarith) (by linarith)
    · refine key t ht' ht (by simp) (by simpa using cos_le_one _)

/-- a node where `extend_f` is needed lies outside the domain, belongs to the discrete boundary, and has a neighbour in the domain -/
theorem kplus_outside {iter : Iter} (hit : IsIter iter) {b : Brentq} {N order : ℕ} {AD a R : ℝ} {r : ℝ → ℝ} (hAD : 0 < AD) (ha : 0 < a)
    (haπ : a < π) (hr2 : 0 ≤ r (2 * π)) {G : PsGrids} (hG : psConstructGrids iter (mkEnv b N AD a R r) order = .ok G)
    (hm : ∀ p ∈ G.Mplus, 2 ≤ p.1 ∧ p.1 ≤ (N : ℤ) - 2 ∧ 2 ≤ p.2 ∧ p.2 ≤ (N : ℤ) - 2)
    {nd : Node} (hnd : nd ∈ G.Kplus \ G.Mplus) :
    getCoord AD N nd.1 nd.2 ∉ Domain a r ∧ nd ∈ G.unionGamma ∧
      ∃ x ∈ Domain a r, dist2 (getCoord AD N nd.1 nd.2) x = AD / N := by
  have hpi := pi_pos
  rw [Finset.mem_sdiff] at hnd
  obtain ⟨hK, hnM⟩ := hnd
  obtain ⟨hg, g1, g2, g3, g4⟩ := psGrids_sets hit hG
  obtain ⟨-, c2, -, c4, c5, c6⟩ := C09_partition hit N order (mkEnv b N AD a R r).interior
  change G.toGrids = constructGrids iter N order _ at hg
  rw [← hg] at c2 c4 c5 c6
  have hnb := (c6 nd).1 hK
  obtain ⟨ho, p, hpM, hdist⟩ := hnb.resolve_left hnM
  have hM0 : nd ∈ G.M0 := by
    rw [show nd = (nd.1, nd.2) from rfl, c2]
    have := hm p hpM
    have e1 : |nd.1 - p.1| ≤ 1 := by have := abs_nonneg (nd.2 - p.2); omega
    have e2 : |nd.2 - p.2| ≤ 1 := by have := abs_nonneg (nd.1 - p.1); omega
    rw [abs_le] at e1 e2
    omega
  have hreach : Reach order p nd := by
    have e1 : |nd.1 - p.1| ≤ 1 := by have := abs_nonneg (nd.2 - p.2); omega
    have e2 : |nd.2 - p.2| ≤ 1 := by have := abs_nonneg (nd.1 - p.1); omega
    exact ⟨e1, e2, fun h => absurd h (by omega)⟩
  have hgam : nd ∈ G.unionGamma := by
    refine (g4 nd).2 ⟨(g1 nd).2 ⟨p, hpM, hreach⟩, (g2 nd).2 ⟨nd, ?_, by simp, by simp, fun _ => Or.inl rfl⟩⟩
    have : nd ∈ G.Mplus ∪ G.Mminus := by rw [c4]; exact hM0
    exact (Finset.mem_union.1 this).resolve_left hnM
  have hdom : ∀ q : Node, (mkEnv b N AD a R r).interior q ↔ getCoord AD N q.1 q.2 ∈ Domain a r :=
    fun q => C07_is_interior AD N a ha (by linarith) r hr2 q.1 q.2
  have hout : getCoord AD N nd.1 nd.2 ∉ Domain a r := fun hc =>
    hnM ((c5 nd).2 ⟨hM0, (hdom nd).2 hc⟩)
  have hsq : dist2 (getCoord AD N nd.1 nd.2) (getCoord AD N p.1 p.2) = AD / N := by
    have h1 : ((nd.1 : ℝ) - p.1) ^ 2 + ((nd.2 : ℝ) - p.2) ^ 2 = 1 := by
      have : (nd.1 - p.1) ^ 2 + (nd.2 - p.2) ^ 2 = (1 : ℤ) := by
        have n1 := abs_nonneg (nd.1 - p.1)
        have n2 := abs_nonneg (nd.2 - p.2)
        rw [← sq_abs (nd.1 - p.1), ← sq_abs (nd.2 - p.2)]
        have : |nd.1 - p.1| = 0 ∧ |nd.2 - p.2| = 1 ∨ |nd.1 - p.1| = 1 ∧ |nd.2 - p.2| = 0 := by omega
        rcases this with ⟨e1, e2⟩ | ⟨e1, e2⟩ <;> rw [e1, e2] <;> norm_num
      exact_mod_cast this
    unfold dist2 getCoord
    simp only
    have e : (AD * ((nd.1 : ℝ) / N - 1 / 2) - AD * ((p.1 : ℝ) / N - 1 / 2)) ^ 2 +
        (AD * ((nd.2 : ℝ) / N - 1 / 2) - AD * ((p.2 : ℝ) / N - 1 / 2)) ^ 2 = (AD / N) ^ 2 := by
      linear_combination (AD / N) ^ 2 * h1
    rw [e]
    exact Real.sqrt_sq (by positivity)
  exact ⟨hout, hgam, _, (hdom p).1 ((c5 p).1 hpM).2, hsq⟩

/-- **C26** `extend_f` finds a foot point, other than the node and the origin, for each of its nodes as long as every node beyond
the outer curve that is next to an interior node is attached to the curve. -/
theorem C26_point_of {iter : Iter} (hit : IsIter iter) {b : Brentq} {N order : ℕ} {AD a R : ℝ} {r : ℝ → ℝ}
    (hAD : 0 < AD) (ha : 0 < a) (haπ : a < π) (hr : ∀ t, a ≤ t → t ≤ 2 * π → 0 < r t) (hra : r a = R) (hr2 : r (2 * π) = R)
    {s : PSolver} (hready : Ready s) (he : s.e = mkEnv b N AD a R r)
    (hG : psConstructGrids iter (mkEnv b N AD a R r) order = .ok s.G)
    (hm : ∀ p ∈ s.G.Mplus, 2 ≤ p.1 ∧ p.1 ≤ (N : ℤ) - 2 ∧ 2 ≤ p.2 ∧ p.2 ≤ (N : ℤ) - 2)
    (hatt : ∀ nd ∈ s.G.unionGamma, ∀ x ∈ Domain a r, dist2 (getCoord AD N nd.1 nd.2) x = AD / N →
      r ((mkEnv b N AD a R r).polar nd).2 ≤ ((mkEnv b N AD a R r).polar nd).1 → nd ∈ s.G.allGamma 0)
    {nd : Node} (hnd : nd ∈ s.G.Kplus \ s.G.Mplus) :
    ∃ p, extendFPoint s nd = .ok (some p) ∧ p ≠ s.e.coord nd ∧ p ≠ (0, 0) := by
  have hpi := pi_pos
  have hR : 0 < R := by rw [← hra]; exact hr a le_rfl (by linarith)
  obtain ⟨hout, hgam, x, hx, hsq⟩ := kplus_outside hit hAD ha haπ (by rw [hr2]; exact hR.le) hG hm hnd
  have hatt := hatt nd hgam x hx hsq
  have hsid : ∃ sid, extendFSid s nd = .ok sid ∧
      (sid = 0 → nd ∈ s.G.allGamma 0) := by
    by_cases hm0 : nd ∈ s.G.allGamma 0
    · obtain ⟨et, het⟩ := getEtype_ok (hready.hasCoord (sid := 0) hm0)
      exact ⟨_, extendFSid_eq (decide (et = .standard)) (fun _ => ⟨et, het, rfl⟩) (fun h => absurd hm0 h), fun _ => hm0⟩
    · refine ⟨_, extendFSid_eq false (fun h => absurd h hm0) (fun _ => rfl), fun h0 => ?_⟩
      exfalso
      have hlt : ((mkEnv b N AD a R r).polar nd).1 <
          (mkEnv b N AD a R r).evalR ((mkEnv b N AD a R r).polar nd).2 := not_le.1 fun h => hm0 (hatt h)
      rw [if_neg (by simp), he, if_pos hlt] at h0
      split_ifs at h0 <;> exact absurd h0 (by decide)
  obtain ⟨sid, hs1, hs2⟩ := hsid
  obtain ⟨et, het⟩ := getEtype_ok (s := s)
    (sid := sid) (nd := nd) (fun h0 => hready.coord nd (hs2 h0))
  have hex : ∃ p, extendFPoint s nd = .ok (some p) := by
    unfold extendFPoint
    simp only []
    rw [hs1, ok_bind, het, ok_bind]
    by_cases e1 : sid = 1
    · rw [if_pos e1]; exact ⟨_, rfl⟩
    rw [if_neg e1]
    by_cases e2 : sid = 2
    · rw [if_pos e2, grp_ok, ok_bind]; exact ⟨_, rfl⟩
    rw [if_neg e2]
    have e0 : sid = 0 := by
      fin_cases sid
      · rfl
      · exact absurd rfl e1
      · exact absurd rfl e2
    obtain ⟨c, hc⟩ := hready.coord nd (hs2 e0)
    rw [hc]
    cases et <;> exact ⟨_, rfl⟩
  obtain ⟨pt, hpt⟩ := hex
  have hout' : s.e.coord nd ∉ Domain a r := by rw [he]; exact hout
  exact ⟨pt, hpt, C26_foot (a := a) (R := R) (r := r) (by rw [he]; rfl) (by rw [he]; rfl) (by rw [he]; rfl) ha haπ
    (fun t h1 h2 => (hr t h1 h2).le) hra hr2 hout' hpt,
    C26_foot_ne_zero (a := a) (R := R) (r := r) (by rw [he]; rfl) (by rw [he]; rfl) (by rw [he]; rfl) ha haπ hr hra hout' hpt⟩

/-- **C26** on every circular-arc problem that is fine enough, `extend_f` finds a foot point for each of its nodes:
it neither aborts nor raises. -/
theorem C26_arc_point {iter : Iter} (hit : IsIter iter) {b : Brentq} (hb : BrentqSpec b) {N order : ℕ}
    {AD a R : ℝ} (hAD : 0 < AD) (ha : 0 < a) (haπ : a < π) (hR : 0 < R)
    (hh : AD / N * √2 * (1 + 1 / sin (a / 2)) < R) {k eps : ℝ} {nc nr : ℕ} {src : Source} {s : PSolver}
    (h : psInit iter (mkEnv b N AD a R (arcR R)) order k eps nc nr src = .ok s)
    (hm : ∀ p ∈ s.G.Mplus, 2 ≤ p.1 ∧ p.1 ≤ (N : ℤ) - 2 ∧ 2 ≤ p.2 ∧ p.2 ≤ (N : ℤ) - 2)
    {nd : Node} (hnd : nd ∈ s.G.Kplus \ s.G.Mplus) :
    ∃ p, extendFPoint s nd = .ok (some p) ∧ p ≠ s.e.coord nd ∧ p ≠ (0, 0) := by
  have hpi := pi_pos
  have hready := ready_arc hit hb hAD ha haπ hR hh h
  unfold psInit at h
  simp only [] at h
  obtain ⟨G, hG, hd⟩ := C12_arc hit hb N order hAD ha haπ hR
  rw [hG, ok_bind, pure_eq_ok] at h
  have hs := Except.ok.inj h
  have he : s.e = mkEnv b N AD a R (arcR R) := by rw [← hs]
  obtain rfl : s.G = G := by rw [← hs]
  refine C26_point_of (r := arcR R) hit hAD ha haπ (fun _ _ _ => hR) rfl rfl hready he hG hm (fun nd hgam x hx hsq hge => ?_) hnd
  obtain ⟨p1, p2, p3, p4⟩ := env_polar (mkEnv b N AD a R (arcR R)) ha (by show a ≤ 4 * π; linarith) nd
  obtain ⟨q, t', d1, d2, d3, d4, rfl⟩ := hx
  obtain ⟨d, hd1, hd2⟩ := hd 0 nd hgam
  refine hd2.2 ?_
  have hge' : R ≤ ((mkEnv b N AD a R (arcR R)).polar nd).1 := hge
  obtain ⟨x, hx, hle⟩ := arc_near ha haπ hR hge' p3 p4 d3 d4 d1 d2
  refine (hd1.2 x hx).trans ?_
  have hc : getCoord AD N nd.1 nd.2 = polarPoint ((mkEnv b N AD a R (arcR R)).polar nd).1
    ((mkEnv b N AD a R (arcR R)).polar nd).2 := p1.symm
  rw [← hc, hsq] at hle
  linarith

theorem extendFLoop_ok {n : ℕ} (s : PSolver) (v : Node → ℂ) (L : List Node)
    (hin : ∀ q ∈ L, 0 ≤ q.1 ∧ q.1 ≤ n + 1 ∧ 0 ≤ q.2 ∧ q.2 ≤ n + 1)
    (h : ∀ q ∈ L, ∃ p, extendFPoint s q = .ok (some p) ∧
      extendFValue s.src (s.e.coord q).1 (s.e.coord q).2 p.1 p.2 = .ok (v q)) (w : Arr (n + 2)) :
    ∃ w', extendFLoop s L w = .ok w' ∧
      ∀ p : Node, fullNode w' p.1 p.2 = if p ∈ L then v p else fullNode w p.1 p.2 := by
  induction L generalizing w with
  | nil => exact ⟨w, rfl, fun p => by simp⟩
  | cons x L ih =>
    obtain ⟨p, e0, e0'⟩ := h x (List.mem_cons_self ..)
    obtain ⟨w1, e1, h1⟩ := arrSet_full w (hin x (List.mem_cons_self ..)) (v x)
    obtain ⟨w2, e2, h2⟩ := ih (fun q hq => hin q (List.mem_cons_of_mem _ hq))
      (fun q hq => h q (List.mem_cons_of_mem _ hq)) w1
    refine ⟨w2, by rw [extendFLoop, e0, ok_bind]; simp only []; rw [e0', ok_bind, e1, ok_bind, e2], fun p => ?_⟩
    rw [h2, h1]
    by_cases hp : p ∈ L
    · rw [if_pos hp, if_pos (List.mem_cons_of_mem _ hp)]
    · rw [if_neg hp]
      by_cases hx : p = x
      · subst hx; simp
      · rw [if_neg hx, if_neg (by simp [hx, hp])]

/-- nodes of `Kplus` are nodes of the auxiliary grid -/
theorem kplus_range {iter : Iter} (hit : IsIter iter) {e : Env} {n order : ℕ} (hN : e.N = n + 1) {G : PsGrids}
    (h : psConstructGrids iter e order = .ok G) (q : Node) (hq : q ∈ G.Kplus) :
    0 ≤ q.1 ∧ q.1 ≤ n + 1 ∧ 0 ≤ q.2 ∧ q.2 ≤ n + 1 := by
  have hin := mplus_inR hit hN h
  obtain ⟨hg, -⟩ := psGrids_sets hit h
  obtain ⟨-, -, -, -, -, c6⟩ := C09_partition hit e.N order e.interior
  rw [← hg] at c6
  rcases (c6 q).1 hq with h1 | ⟨-, p, hp, hd⟩
  · obtain ⟨a1, a2, a3, a4⟩ := hin q h1
    omega
  · obtain ⟨a1, a2, a3, a4⟩ := hin p hp
    have e1 : |q.1 - p.1| ≤ 1 := by have := abs_nonneg (q.2 - p.2); omega
    have e2 : |q.2 - p.2| ≤ 1 := by have := abs_nonneg (q.1 - p.1); omega
    rw [abs_le] at e1 e2
    omega

theorem fullNode_zero {n : ℕ} (i j : ℤ) : fullNode (fun _ _ => 0 : Arr (n + 2)) i j = 0 := by
  unfold fullNode
  split <;> rfl

/-- **C26** `setup_f` writes the source at the interior nodes, the Taylor value at the other nodes of `Kplus`, and
leaves zero elsewhere. -/
theorem C26_setup_f {iter : Iter} {s : PSolver} {n : ℕ} (hit : IsIter iter) (hN : s.e.N = n + 1)
    (hG : psConstructGrids iter s.e s.order = .ok s.G) (hh : s.src.homogeneous = false) (P : Node → ℝ × ℝ)
    (g : Node → ℂ × ℂ) (H : Node → (ℂ × ℂ) × (ℂ × ℂ))
    (hP : ∀ q ∈ s.G.Kplus \ s.G.Mplus, extendFPoint s q = .ok (some (P q)) ∧ P q ≠ s.e.coord q)
    (hg : ∀ q ∈ s.G.Kplus \ s.G.Mplus, s.src.grad (P q).1 (P q).2 = .ok (g q))
    (hH : ∀ q ∈ s.G.Kplus \ s.G.Mplus, s.src.hess (P q).1 (P q).2 = .ok (H q)) :
    ∃ f : Arr (n + 2), setupF iter s = .ok f ∧
      (∀ q ∈ s.G.Mplus, fullNode f q.1 q.2 = s.src.f (s.e.coord q).1 (s.e.coord q).2) ∧
      (∀ q ∈ s.G.Kplus \ s.G.Mplus,
        fullNode f q.1 q.2 = taylor2 (s.src.f (P q).1 (P q).2) (g q) (H q) (P q) (s.e.coord q)) ∧
      ∀ q, q ∉ s.G.Kplus → fullNode f q.1 q.2 = 0 := by
  obtain ⟨hgr, -⟩ := psGrids_sets hit hG
  have hsub : ∀ q ∈ s.G.Mplus, q ∈ s.G.Kplus := by
    obtain ⟨-, -, -, -, -, c6⟩ := C09_partition hit s.e.N s.order s.e.interior
    rw [← hgr] at c6
    exact fun q hq => (c6 q).2 (Or.inl hq)
  have hrange := kplus_range hit hN hG
  obtain ⟨w1, e1, h1⟩ := setLoop (n := n) (fun nd => s.src.f (s.e.coord nd).1 (s.e.coord nd).2) (iter 6 s.G.Mplus)
    (fun q hq => hrange q (hsub q (((hit 6 _).2 q).1 hq))) (fun _ _ => 0)
  obtain ⟨w2, e2, h2⟩ := extendFLoop_ok s
    (fun q => taylor2 (s.src.f (P q).1 (P q).2) (g q) (H q) (P q) (s.e.coord q)) (iter 7 (s.G.Kplus \ s.G.Mplus))
    (fun q hq => hrange q (Finset.mem_sdiff.1 (((hit 7 _).2 q).1 hq)).1)
    (fun q hq => by
      have hq' := ((hit 7 _).2 q).1 hq
      refine ⟨P q, (hP q hq').1, (C26_value s.src _ _ (P q) (hg q hq') (hH q hq')).2 (hP q hq').2⟩) w1
  refine ⟨w2, ?_, fun q hq => ?_, fun q hq => ?_, fun q hq => ?_⟩
  · unfold setupF extendF
    rw [e1, ok_bind, if_neg (by simp [hh]), e2]
  · rw [h2, if_neg, h1, if_pos (((hit 6 _).2 q).2 hq)]
    intro h
    exact (Finset.mem_sdiff.1 (((hit 7 _).2 q).1 h)).2 hq
  · rw [h2, if_pos (((hit 7 _).2 q).2 hq)]
  · rw [h2, if_neg, h1, if_neg, fullNode_zero]
    · exact fun h => hq (hsub q (((hit 6 _).2 q).1 h))
    · exact fun h => hq (Finset.mem_sdiff.1 (((hit 7 _).2 q).1 h)).1

/-- `f` is a polynomial of degree at most two with the given exact gradient and Hessian -/
structure IsQuadratic (src : Source) : Prop where
  quad : ∃ c g1 g2 h11 h12 h22 : ℂ, ∀ x y : ℝ,
    src.f x y = c + g1 * x + g2 * y + h11 * x ^ 2 + h12 * x * y + h22 * y ^ 2 ∧
    src.grad x y = .ok (g1 + 2 * h11 * x + h12 * y, g2 + h12 * x + 2 * h22 * y) ∧
    src.hess x y = .ok ((2 * h11, h12), (h12, 2 * h22))

/-- **C26** `extend_f` is exact for quadratic sources. -/
theorem C26_quadratic {iter : Iter} {s : PSolver} {n : ℕ} (hit : IsIter iter) (hN : s.e.N = n + 1)
    (hG : psConstructGrids iter s.e s.order = .ok s.G) (hh : s.src.homogeneous = false) (hq : IsQuadratic s.src)
    (hP : ∀ q ∈ s.G.Kplus \ s.G.Mplus, ∃ p, extendFPoint s q = .ok (some p) ∧ p ≠ s.e.coord q) :
    ∃ f : Arr (n + 2), setupF iter s = .ok f ∧
      ∀ q : Node, fullNode f q.1 q.2 = if q ∈ s.G.Kplus then s.src.f (s.e.coord q).1 (s.e.coord q).2 else 0 := by
  classical
  obtain ⟨c, g1, g2, h11, h12, h22, hf⟩ := hq.quad
  choose! P hP using hP
  obtain ⟨f, e, k1, k2, k3⟩ := C26_setup_f hit hN hG hh P
    (fun q => (g1 + 2 * h11 * (P q).1 + h12 * (P q).2, g2 + h12 * (P q).1 + 2 * h22 * (P q).2))
    (fun _ => ((2 * h11, h12), (h12, 2 * h22))) hP (fun q _ => (hf _ _).2.1) (fun q _ => (hf _ _).2.2)
  refine ⟨f, e, fun q => ?_⟩
  by_cases hK : q ∈ s.G.Kplus
  · rw [if_pos hK]
    by_cases hM : q ∈ s.G.Mplus
    · exact k1 q hM
    · rw [k2 q (Finset.mem_sdiff.2 ⟨hK, hM⟩), (hf _ _).1, (hf _ _).1]
      unfold taylor2
      ring
  · rw [if_neg hK, k3 q hK]

/-- **C25** for scheme order above 2 the right-hand side at an interior node depends only on the values of `f` at the
nodes of `Kplus`. -/
theorem C25_reads {iter : Iter} (hit : IsIter iter) {e : Env} {n order : ℕ} {G : PsGrids}
    (h : psConstructGrids iter e order = .ok G) (ho : 2 < order) (f f' : Arr (n + 2))
    (hf : ∀ q ∈ G.Kplus, fullNode f q.1 q.2 = fullNode f' q.1 q.2) (a b : Fin n)
    (hab : ((a : ℤ) + 1, (b : ℤ) + 1) ∈ G.Mplus) : applyB f a b = applyB f' a b := by
  obtain ⟨hg, -⟩ := psGrids_sets hit h
  obtain ⟨-, -, -, -, -, c6⟩ := C09_partition hit e.N order e.interior
  rw [← hg] at c6
  have hn : ∀ i j : ℤ, |i - ((a : ℤ) + 1)| + |j - ((b : ℤ) + 1)| = 1 → fullNode f i j = fullNode f' i j :=
    fun i j hd => hf (i, j) ((c6 _).2 (Or.inr ⟨ho, _, hab, hd⟩))
  rw [applyB_eq_spec, applyB_eq_spec]
  unfold B4 dxx dyy
  rw [hf _ ((c6 _).2 (Or.inl hab)), hn _ _ (by simp), hn _ _ (by simp), hn _ _ (by simp), hn _ _ (by simp)]

/-- **C25**, **C26** consequence: for a quadratic source the right-hand side at interior nodes is the compact average
of the true source, with no trace of the zero fill. -/
theorem C25_true_source {iter : Iter} {s : PSolver} {n : ℕ} (hit : IsIter iter) (hN : s.e.N = n + 1)
    (hG : psConstructGrids iter s.e s.order = .ok s.G) (hh : s.src.homogeneous = false) (hq : IsQuadratic s.src)
    (hP : ∀ q ∈ s.G.Kplus \ s.G.Mplus, ∃ p, extendFPoint s q = .ok (some p) ∧ p ≠ s.e.coord q) (ho : 2 < s.order) :
    ∃ f : Arr (n + 2), setupF iter s = .ok f ∧ ∀ a b : Fin n, ((a : ℤ) + 1, (b : ℤ) + 1) ∈ s.G.Mplus →
      applyB f a b = B4 (fun i j => s.src.f (s.e.coord (i, j)).1 (s.e.coord (i, j)).2) (a + 1) (b + 1) := by
  classical
  obtain ⟨f, e, k⟩ := C26_quadratic hit hN hG hh hq hP
  obtain ⟨hg, -⟩ := psGrids_sets hit hG
  obtain ⟨-, -, -, -, -, c6⟩ := C09_partition hit s.e.N s.order s.e.interior
  rw [← hg] at c6
  refine ⟨f, e, fun a b hab => ?_⟩
  have hf : ∀ i j : ℤ, (i, j) ∈ s.G.Kplus →
      fullNode f i j = s.src.f (s.e.coord (i, j)).1 (s.e.coord (i, j)).2 := fun i j h => by
    rw [k (i, j), if_pos h]
  have hn : ∀ i j : ℤ, |i - ((a : ℤ) + 1)| + |j - ((b : ℤ) + 1)| = 1 →
      fullNode f i j = s.src.f (s.e.coord (i, j)).1 (s.e.coord (i, j)).2 :=
    fun i j hd => hf i j ((c6 _).2 (Or.inr ⟨ho, _, hab, hd⟩))
  rw [applyB_eq_spec]
  unfold B4 dxx dyy
  rw [hf _ _ ((c6 _).2 (Or.inl hab)), hn _ _ (by simp), hn _ _ (by simp), hn _ _ (by simp), hn _ _ (by simp)]

/-! ## Non-vacuity, and the second-order scheme -/

theorem psInit_ok {iter : Iter} {e : Env} {order : ℕ} {k eps : ℝ} {nc nr : ℕ} {src : Source} {G : PsGrids}
    (hG : psConstructGrids iter e order = .ok G) :
    psInit iter e order k eps nc nr src = .ok ⟨e, order, k, eps, setupBasis nc nr, G, buildCache e (G.allGamma 0), src⟩ := by
  unfold psInit
  simp only []
  rw [hG, ok_bind, pure_eq_ok]

/-- the constant source 1 -/
noncomputable def oneSource : Source where
  homogeneous := false
  f _ _ := 1
  grad _ _ := .ok (0, 0)
  hess _ _ := .ok ((0, 0), (0, 0))
  fPolar _ _ := 1
  gradPolar _ _ := .ok (0, 0)
  hessPolar _ _ := .ok ((0, 0), (0, 0))
  dFth _ _ := 0
  d2Fth _ _ := 0
  dFr _ _ := 0
  d2Fr _ _ := 0
  d2Frth _ _ := 0

theorem oneSource_quadratic : IsQuadratic oneSource :=
  ⟨1, 0, 0, 0, 0, 0, fun x y => by simp [oneSource]⟩

/-- interior and exterior nodes used in the examples -/
theorem quarter_nodes {b : Brentq} {order : ℕ} {G : PsGrids}
    (hG : psConstructGrids (fun _ s => s.toList) (mkEnv b 16 (2 * π) (π / 2) 2.3 (arcR 2.3)) order = .ok G) :
    ((9, 8) : Node) ∈ G.Mplus ∧ ((8, 8) : Node) ∈ G.Mplus ∧ ((10, 8) : Node) ∈ G.Mplus ∧ ((9, 7) : Node) ∈ G.Mplus ∧
      ((9, 9) : Node) ∉ G.Mplus := by
  have hpi := pi_pos
  have hpl := pi_lt_d2
  obtain ⟨hg, -⟩ := psGrids_sets isIter_toList hG
  have hdom : ∀ x y : ℝ, (x, y) ∈ Domain (π / 2) (arcR 2.3) ↔ _ :=
    arc_domain (a := π / 2) (R := 2.3) (by positivity) (by linarith) (by norm_num)
  have hint : ∀ nd : Node, (mkEnv b 16 (2 * π) (π / 2) 2.3 (arcR 2.3)).interior nd ↔
      getCoord (2 * π) 16 nd.1 nd.2 ∈ Domain (π / 2) (arcR 2.3) := fun nd =>
    C07_is_interior (2 * π) 16 (π / 2) (by positivity) (by linarith) (arcR 2.3) (by norm_num [arcR]) nd.1 nd.2
  have hmem : ∀ nd : Node, nd ∈ G.Mplus ↔ nd ∈ square 1 16 ∧ getCoord (2 * π) 16 nd.1 nd.2 ∈ Domain (π / 2) (arcR 2.3) := by
    intro nd
    rw [hg, mem_Mplus isIter_toList, hint]
    rfl
  have hc : ∀ i j : ℤ, getCoord (2 * π) 16 (i : ℝ) (j : ℝ) = (π / 8 * (i - 8), π / 8 * (j - 8)) := by
    intro i j
    unfold getCoord
    ext <;> push_cast <;> ring
  simp only [hmem, hc, hdom, mem_square, sin_pi_div_two, cos_pi_div_two]
  have h2 : π ^ 2 ≤ 3.15 ^ 2 := by apply pow_le_pow_left₀ hpi.le hpl.le
  refine ⟨⟨by norm_num, ?_, ?_⟩, ⟨by norm_num, ?_, ?_⟩, ⟨by norm_num, ?_, ?_⟩, ⟨by norm_num, ?_, ?_⟩, ?_⟩
  all_goals push_cast
  all_goals first
    | nlinarith
    | (left; norm_num; done)
    | (left; norm_num; positivity)
    | skip
  rintro ⟨-, -, h | h⟩ <;> linarith

/-- **C25** is false for scheme order 2: with the constant source 1 the right-hand side at an interior node next to
the wedge is 11/12 because it mixes in a zero that was never filled. -/
theorem C25_order_two_false {b : Brentq} (hb : BrentqSpec b) (k eps : ℝ) (nc nr : ℕ) :
    ∃ s : PSolver, psInit (fun _ s => s.toList) (mkEnv b 16 (2 * π) (π / 2) 2.3 (arcR 2.3)) 2 k eps nc nr oneSource
        = .ok s ∧
      ∃ f : Arr 17, setupF (fun _ s => s.toList) s = .ok f ∧ ∃ a b : Fin 15, ((a : ℤ) + 1, (b : ℤ) + 1) ∈ s.G.Mplus ∧
        applyB f a b = 11 / 12 ∧
        B4 (fun i j => oneSource.f (s.e.coord (i, j)).1 (s.e.coord (i, j)).2) (a + 1) (b + 1) = 1 := by
  have hpi := pi_pos
  obtain ⟨G, hG, -⟩ := C12_arc isIter_toList hb 16 2 (AD := 2 * π) (a := π / 2) (R := 2.3) (by positivity)
    (by positivity) (by linarith) (by norm_num)
  refine ⟨_, psInit_ok hG, ?_⟩
  obtain ⟨m1, m2, m3, m4, m5⟩ := quarter_nodes hG
  obtain ⟨hg, -⟩ := psGrids_sets isIter_toList hG
  obtain ⟨-, -, -, -, -, c6⟩ := C09_partition isIter_toList 16 2 (mkEnv b 16 (2 * π) (π / 2) 2.3 (arcR 2.3)).interior
  change G.toGrids = constructGrids _ 16 2 _ at hg
  rw [← hg] at c6
  have hKM : ∀ q, q ∈ G.Kplus ↔ q ∈ G.Mplus := fun q => by
    rw [c6 q]
    constructor
    · rintro (h | ⟨h, -⟩)
      · exact h
      · omega
    · exact Or.inl
  obtain ⟨f, hf, hv⟩ := C26_quadratic (n := 15) (iter := fun _ s => s.toList)
    (s := ⟨mkEnv b 16 (2 * π) (π / 2) 2.3 (arcR 2.3), 2, k, eps, setupBasis nc nr, G,
      buildCache (mkEnv b 16 (2 * π) (π / 2) 2.3 (arcR 2.3)) (G.allGamma 0), oneSource⟩)
    isIter_toList rfl hG rfl oneSource_quadratic (fun q hq => by
      rw [Finset.mem_sdiff] at hq
      exact absurd ((hKM q).1 hq.1) hq.2)
  simp only [] at hv
  refine ⟨f, hf, 8, 7, m1, ?_, ?_⟩
  · rw [applyB_eq_spec]
    unfold B4 dxx dyy
    have e : ∀ i j : ℤ, fullNode f i j = if (i, j) ∈ G.Kplus then 1 else 0 := fun i j => hv (i, j)
    have v0 : fullNode f 9 8 = 1 := by rw [e, if_pos ((hKM _).2 m1)]
    have v1 : fullNode f 10 8 = 1 := by rw [e, if_pos ((hKM _).2 m3)]
    have v2 : fullNode f 8 8 = 1 := by rw [e, if_pos ((hKM _).2 m2)]
    have v3 : fullNode f 9 9 = 0 := by rw [e, if_neg fun h => m5 ((hKM _).1 h)]
    have v4 : fullNode f 9 7 = 1 := by rw [e, if_pos ((hKM _).2 m4)]
    have c1 : (((8 : Fin 15) : ℕ) : ℤ) = 8 := rfl
    have c2 : (((7 : Fin 15) : ℕ) : ℤ) = 7 := rfl
    rw [c1, c2]
    norm_num
    rw [v0, v1, v2, v3, v4]
    norm_num
  · unfold B4 dxx dyy oneSource
    norm_num

end Pot
