import Verif.Proofs.SourceMix
import Verif.Proofs.ChebFit
import Verif.Props.Arc

/-! # Every step of the run is real-linear -/

namespace Pot
open Spec Finset ComplexConjugate

/-- the relation on vectors of length `L` -/
def LV (m : Mix) (L : ℕ) (a b c : List ℂ) : Prop := a.length = L ∧ b.length = L ∧ c = List.zipWith m.app a b

theorem LV.len {m : Mix} {L : ℕ} {a b c : List ℂ} (h : LV m L a b c) : c.length = L := by
  rw [h.2.2]; simp [h.1, h.2.1]

theorem LV.getD {m : Mix} {L : ℕ} {a b c : List ℂ} (h : LV m L a b c) (l : ℕ) : c.getD l 0 = m.app (a.getD l 0) (b.getD l 0) := by
  rw [h.2.2]; exact getD_zipWith _ (Mix.app_zero m) _ _ (h.1.trans h.2.1.symm) l

theorem LV.of {m : Mix} {L : ℕ} {a b c : List ℂ} (ha : a.length = L) (hb : b.length = L) (hc : c.length = L)
    (h : ∀ l < L, c.getD l 0 = m.app (a.getD l 0) (b.getD l 0)) : LV m L a b c := by
  refine ⟨ha, hb, List.ext_getElem (by simp [ha, hb, hc]) fun l h1 h2 => ?_⟩
  have := h l (hc ▸ h1)
  rw [List.getD_eq_getElem _ _ h1, List.getD_eq_getElem _ _ (by omega), List.getD_eq_getElem _ _ (by omega)] at this
  rw [this, List.getElem_zipWith]

theorem LV.map {m : Mix} {α : Type} (l : List α) {f g h : α → ℂ} (hh : ∀ x ∈ l, h x = m.app (f x) (g x)) :
    LV m l.length (l.map f) (l.map g) (l.map h) := by
  refine ⟨by simp, by simp, ?_⟩
  rw [List.zipWith_map_left, List.zipWith_map_right, List.zipWith_self]
  exact List.map_congr_left hh

theorem map_of_LV {m : Mix} {α : Type} {L : ℕ} {l : List α} {f g h : α → ℂ} (H : LV m L (l.map f) (l.map g) (l.map h)) :
    ∀ x ∈ l, h x = m.app (f x) (g x) := by
  have := H.2.2
  rw [List.zipWith_map_left, List.zipWith_map_right, List.zipWith_self] at this
  exact fun x hx => (List.map_inj_left.1 this) x hx

/-! ## The loop over the boundary nodes -/

theorem loop_mix {m : Mix} {s : PSolver} (R : Ready s) {x1 x2 x3 : Fin 3 → EType → Node → Py (ℝ × ℂ)}
    (h : ∀ sid et, ∀ nd ∈ s.G.allGamma sid, Rel3 (PV m) (x1 sid et nd) (x2 sid et nd) (x3 sid et nd)) :
    Rel3 (LV m s.G.unionGamma.length) (mvLoop s x1 >>= mvReduce) (mvLoop s x2 >>= mvReduce) (mvLoop s x3 >>= mvReduce) := by
  classical
  intro a1 a2 h1 h2
  rcases e1 : mvLoop s x1 with er | m1
  · rw [e1, error_bind] at h1; cases h1
  rcases e2 : mvLoop s x2 with er | m2
  · rw [e2, error_bind] at h2; cases h2
  rw [e1, ok_bind] at h1
  rw [e2, ok_bind] at h2
  obtain ⟨et, r1, hs1, rfl⟩ := mvLoop_inv e1
  obtain ⟨et', r2, hs2, rfl⟩ := mvLoop_inv e2
  have het : ∀ sid, ∀ nd ∈ s.G.allGamma sid, et' sid nd = et sid nd := fun sid nd hnd =>
    Except.ok.inj ((hs2 sid nd hnd).2.1.symm.trans (hs1 sid nd hnd).2.1)
  have hr3 : ∀ sid nd, ∃ r3 : ℝ × ℂ, nd ∈ s.G.allGamma sid →
      x3 sid (et sid nd) nd = .ok r3 ∧ r3.2 = m.app (r1 sid nd).2 (r2 sid nd).2 := by
    intro sid nd
    by_cases hnd : nd ∈ s.G.allGamma sid
    · obtain ⟨r3, hr, hP⟩ := h sid (et sid nd) nd hnd _ _ (hs1 sid nd hnd).2.2 (het sid nd hnd ▸ (hs2 sid nd hnd).2.2)
      exact ⟨r3, fun _ => ⟨hr, hP.2.2⟩⟩
    · exact ⟨0, fun h' => absurd h' hnd⟩
  choose r3 hr3 using hr3
  obtain ⟨-, g1⟩ := mvLoop_reduce R hs1
  obtain ⟨-, g2⟩ := mvLoop_reduce R hs2
  obtain ⟨f3, g3⟩ := mvLoop_reduce R (ext := x3) (et := et) (res := r3) fun sid nd hnd =>
    ⟨(hs1 sid nd hnd).1, (hs1 sid nd hnd).2.1, (hr3 sid nd hnd).1⟩
  rw [h1] at g1
  rw [h2] at g2
  refine ⟨_, by rw [f3, ok_bind, g3], ?_⟩
  rw [Except.ok.inj g1, Except.ok.inj g2]
  refine LV.map _ fun nd _ => ?_
  simp only [mean_items, div_eq_mul_inv]
  rw [Mix.app_mul' m (by rw [map_inv₀, map_natCast]), Mix.app_list_sum]
  congr 2
  refine List.map_congr_left fun p hp => ?_
  unfold visits at hp
  obtain ⟨sid, -, hp⟩ := List.mem_flatMap.1 hp
  obtain ⟨q, hq, rfl⟩ := List.mem_map.1 hp
  exact (hr3 sid q (List.mem_of_mem_filter hq)).2

/-! ## The homogeneous part -/

theorem xiTab_mix {m : Mix} (s : PSolver) {ξ1 ξ2 ξ3 : XiSrc}
    (h : ∀ i JJ, ξ3.val i JJ = m.app (ξ1.val i JJ) (ξ2.val i JJ)) (arg : ℝ) (sid : Fin 3) (t : ℕ × Fin 2) :
    xiTab s ξ3 arg sid t = m.app (xiTab s ξ1 arg sid t) (xiTab s ξ2 arg sid t) := by
  unfold xiTab
  rw [Mix.app_sum]
  exact sum_congr rfl fun JJ _ => by rw [h, mix_real]

theorem shiftTab_mix {m : Mix} {x y z : ℕ × Fin 2 → ℂ} (h : ∀ t, z t = m.app (x t) (y t)) (d : ℝ) (t : ℕ × Fin 2) :
    shiftTab z d t = m.app (shiftTab x d t) (shiftTab y d t) := by
  unfold shiftTab
  rw [Mix.app_sum]
  exact sum_congr rfl fun JJ _ => by rw [h, mix_real]

theorem radius_mix {m : Mix} {x y z : ℕ × Fin 2 → ℂ} (h : ∀ t, z t = m.app (x t) (y t)) (k n : ℝ) :
    extendArbitrary k (radiusArgs n z) = m.app (extendArbitrary k (radiusArgs n x)) (extendArbitrary k (radiusArgs n y)) := by
  simp only [extendArbitrary, arcDerivs, radiusArgs, taylorSum5, h, Mix.app, map_add, map_sub, map_neg, map_mul, map_div₀,
    map_pow, Complex.conj_ofReal, Complex.conj_ofNat]
  ring

theorem outer_mix {m : Mix} {x y z : ℕ × Fin 2 → ℂ} (h : ∀ t, z t = m.app (x t) (y t)) (k : ℝ) (r : ℝ → ℝ) (n th : ℝ) :
    extendPolar k (outerArgs r n th z) =
      m.app (extendPolar k (outerArgs r n th x)) (extendPolar k (outerArgs r n th y)) := by
  simp only [extendPolar, extendArbitrary, arcDerivs, polarToArc, outerArgs, taylorSum5, h, Mix.app, map_add, map_sub,
    map_neg, map_mul, map_div₀, map_pow, Complex.conj_ofReal, Complex.conj_ofNat]
  ring

theorem rel_ok {α : Type} {P : α → α → α → Prop} {x1 x2 x3 : Py α} {a b c : α} (h1 : x1 = .ok a) (h2 : x2 = .ok b)
    (h3 : x3 = .ok c) (h : P a b c) : Rel3 P x1 x2 x3 := by
  subst h1; subst h2; subst h3
  exact Rel3.pure h

theorem doExtend_mix {m : Mix} (s : PSolver) {ξ1 ξ2 ξ3 : XiSrc} (v1 : ξ1.Valid s.bas.bDesc) (v2 : ξ2.Valid s.bas.bDesc)
    (v3 : ξ3.Valid s.bas.bDesc) (h : ∀ i JJ, ξ3.val i JJ = m.app (ξ1.val i JJ) (ξ2.val i JJ)) (sid : Fin 3) (et : EType)
    (nd : Node) (hc : HasCoord s sid nd) :
    Rel3 (PV m) (doExtend s ξ1 sid et nd) (doExtend s ξ2 sid et nd) (doExtend s ξ3 sid et nd) := by
  have h0 := hc
  fin_cases sid
  · obtain ⟨c, hc⟩ := h0 rfl
    rcases et with _ | _ | _
    · exact rel_ok (doExtend0Left_ok s v1 hc) (doExtend0Left_ok s v2 hc) (doExtend0Left_ok s v3 hc)
        ⟨rfl, rfl, outer_mix (shiftTab_mix (xiTab_mix s h _ _) _) _ _ _ _⟩
    · exact rel_ok (doExtend0Standard_ok s v1 hc) (doExtend0Standard_ok s v2 hc) (doExtend0Standard_ok s v3 hc)
        ⟨rfl, rfl, outer_mix (xiTab_mix s h _ _) _ _ _ _⟩
    · exact rel_ok (doExtend0Right_ok s v1 hc) (doExtend0Right_ok s v2 hc) (doExtend0Right_ok s v3 hc)
        ⟨rfl, rfl, outer_mix (shiftTab_mix (xiTab_mix s h _ _) _) _ _ _ _⟩
  · rcases et with _ | _ | _
    · exact rel_ok (doExtend1Left_ok s v1) (doExtend1Left_ok s v2) (doExtend1Left_ok s v3)
        ⟨rfl, rfl, radius_mix (shiftTab_mix (xiTab_mix s h _ _) _) _ _⟩
    · exact rel_ok (doExtend1Standard_ok s v1) (doExtend1Standard_ok s v2) (doExtend1Standard_ok s v3)
        ⟨rfl, rfl, radius_mix (xiTab_mix s h _ _) _ _⟩
    · exact rel_ok (doExtend1Right_ok s v1) (doExtend1Right_ok s v2) (doExtend1Right_ok s v3)
        ⟨rfl, rfl, radius_mix (shiftTab_mix (xiTab_mix s h _ _) _) _ _⟩
  · rcases et with _ | _ | _
    · exact rel_ok (doExtend2Left_ok s v1) (doExtend2Left_ok s v2) (doExtend2Left_ok s v3)
        ⟨rfl, rfl, radius_mix (shiftTab_mix (xiTab_mix s h _ _) _) _ _⟩
    · exact rel_ok (doExtend2Standard_ok s v1) (doExtend2Standard_ok s v2) (doExtend2Standard_ok s v3)
        ⟨rfl, rfl, radius_mix (xiTab_mix s h _ _) _ _⟩
    · exact rel_ok (doExtend2Right_ok s v1) (doExtend2Right_ok s v2) (doExtend2Right_ok s v3)
        ⟨rfl, rfl, radius_mix (shiftTab_mix (xiTab_mix s h _ _) _) _ _⟩

theorem homo_mix {m : Mix} {s : PSolver} (R : Ready s) {ξ1 ξ2 ξ3 : XiSrc} (v1 : ξ1.Valid s.bas.bDesc)
    (v2 : ξ2.Valid s.bas.bDesc) (v3 : ξ3.Valid s.bas.bDesc) (h : ∀ i JJ, ξ3.val i JJ = m.app (ξ1.val i JJ) (ξ2.val i JJ)) :
    Rel3 (LV m s.G.unionGamma.length) (mvExtendHomo s ξ1 >>= mvReduce) (mvExtendHomo s ξ2 >>= mvReduce)
      (mvExtendHomo s ξ3 >>= mvReduce) :=
  loop_mix R fun sid et nd hnd => doExtend_mix s v1 v2 v3 h sid et nd (R.hasCoord hnd)

/-- taking conjugates -/
def Mix.conj : Mix := ⟨0, 1, 0, 0⟩

theorem Mix.conj_app (x y : ℂ) : Mix.conj.app x y = conj x := by simp [Mix.conj, Mix.app]

theorem real_of_conj {L : ℕ} {a : List ℂ} (h : LV Mix.conj L a a a) : ∀ z ∈ a, conj z = z := by
  intro z hz
  obtain ⟨i, hi, rfl⟩ := List.getElem_of_mem hz
  have := h.getD i
  rw [Mix.conj_app, List.getD_eq_getElem _ _ hi] at this
  exact this.symm

theorem conj_of_real {a : List ℂ} (h : ∀ z ∈ a, conj z = z) : LV Mix.conj a.length a a a := by
  refine LV.of rfl rfl rfl fun l hl => ?_
  rw [Mix.conj_app, List.getD_eq_getElem _ _ hl, h _ (List.getElem_mem hl)]

theorem extendBasis_eq (s : PSolver) (JJ : ℕ) (i : Fin 2) : extendBasis s JJ i = (mvExtendHomo s (.basis JJ i) >>= mvReduce) := by
  unfold extendBasis extendBoundary mvExtendBoundary
  rcases mvExtendHomo s (.basis JJ i) with er | a <;> rfl

theorem extendBasis_real {s : PSolver} (R : Ready s) {JJ : ℕ} (hJ : JJ < s.bas.bDesc.length) (i : Fin 2) {a : List ℂ}
    (h : extendBasis s JJ i = .ok a) : ∀ z ∈ a, conj z = z := by
  rw [extendBasis_eq] at h
  obtain ⟨a', h', hl⟩ := homo_mix (m := Mix.conj) R (ξ1 := .basis JJ i) (ξ2 := .basis JJ i) (ξ3 := .basis JJ i) hJ hJ hJ
    (fun i' JJ' => by rw [Mix.conj_app]; unfold XiSrc.val; simp only []; split_ifs <;> simp) a a h h
  rw [h] at h'
  cases h'
  exact real_of_conj hl

/-! ## The discrete operators -/

theorem Lh_mix (m : Mix) (order : ℕ) (h k : ℝ) {u v w : ℤ → ℤ → ℂ} (hw : ∀ i j, w i j = m.app (u i j) (v i j)) (i j : ℤ) :
    Lh order h k w i j = m.app (Lh order h k u i j) (Lh order h k v i j) := by
  unfold Lh
  split_ifs
  · simp only [L4, dxx, dyy, hw, Mix.app, map_add, map_sub, map_mul, map_div₀, map_pow, Complex.conj_ofReal, Complex.conj_ofNat]
    ring
  · simp only [L2, dxx, dyy, hw, Mix.app, map_add, map_sub, map_mul, map_div₀, map_pow, Complex.conj_ofReal, Complex.conj_ofNat]
    ring

theorem B4_mix (m : Mix) {u v w : ℤ → ℤ → ℂ} (hw : ∀ i j, w i j = m.app (u i j) (v i j)) (i j : ℤ) :
    B4 w i j = m.app (B4 u i j) (B4 v i j) := by
  simp only [B4, dxx, dyy, hw, Mix.app, map_add, map_sub, map_mul, map_div₀, Complex.conj_ofNat]
  ring

theorem node_mix {m : Mix} {n : ℕ} {u v w : Arr n} (h : AV m u v w) (i j : ℤ) : node w i j = m.app (node u i j) (node v i j) := by
  unfold node
  split_ifs
  · exact h _ _
  · exact (Mix.app_zero m).symm

theorem fullNode_mix {m : Mix} {n : ℕ} {u v w : Arr (n + 2)} (h : AV m u v w) (i j : ℤ) :
    fullNode w i j = m.app (fullNode u i j) (fullNode v i j) := by
  unfold fullNode
  split_ifs
  · exact h _ _
  · exact (Mix.app_zero m).symm

theorem LN_mix {m : Mix} {n order : ℕ} {AD k : ℝ} {u v w : Arr n} (h : AV m u v w) (q : Node) :
    LN order AD k w q = m.app (LN order AD k u q) (LN order AD k v q) := by
  unfold LN
  exact Lh_mix m _ _ _ (node_mix h) _ _

section
variable {m : Mix} {iter : Iter} {e : Env} {n order : ℕ} {k : ℝ} {G : PsGrids}

/-- the difference potential -/
theorem pot_mix (S : Setup iter e n order k G) {x1 x2 x3 : List ℂ} (h : LV m G.unionGamma.length x1 x2 x3) :
    Rel3 (AV (n := n) m) (getPotential iter e order k G x1) (getPotential iter e order k G x2)
      (getPotential iter e order k G x3) := by
  obtain ⟨w1, P1, e1, i1, v1, z1⟩ := S.pot x1 h.1.ge
  obtain ⟨w2, P2, e2, i2, v2, z2⟩ := S.pot x2 h.2.1.ge
  obtain ⟨w3, P3, e3, i3, v3, z3⟩ := S.pot x3 h.len.ge
  refine rel_ok e1 e2 e3 ?_
  have hw : AV m w1 w2 w3 := by
    have hn : ∀ q : Node, node w3 q.1 q.2 = m.app (node w1 q.1 q.2) (node w2 q.1 q.2) := by
      intro q
      by_cases hq : q ∈ G.unionGamma
      · obtain ⟨l, hl, rfl⟩ := List.getElem_of_mem hq
        rw [v1 l hl, v2 l hl, v3 l hl]
        have := h.getD l
        rwa [List.getD_eq_getElem _ _ (by rw [h.len]; exact hl), List.getD_eq_getElem _ _ (by rw [h.1]; exact hl),
          List.getD_eq_getElem _ _ (by rw [h.2.1]; exact hl)] at this
      · rw [z1 q hq, z2 q hq, z3 q hq, Mix.app_zero]
    intro a b
    have := hn ((a : ℤ) + 1, (b : ℤ) + 1)
    simpa only [node_at] using this
  let P' : Arr n := fun a b => m.app (P1 a b) (P2 a b)
  have hP' : AV m P1 P2 P' := fun _ _ => rfl
  have hI : IsPot order e.AD k G w3 P' := by
    constructor
    · intro q hq
      rw [LN_mix hP', i1.plus q hq, i2.plus q hq, Mix.app_zero]
    · intro q hq
      rw [LN_mix hP', LN_mix hw, i1.minus q hq, i2.minus q hq]
  rw [IsPot.unique S.ho S.hAD S.hz S.core i3 hI]
  exact hP'

theorem trace_mix (S : Setup iter e n order k G) {P1 P2 P3 : Arr n} (h : AV m P1 P2 P3) :
    Rel3 (LV m G.unionGamma.length) (getTrace G.unionGamma P1) (getTrace G.unionGamma P2) (getTrace G.unionGamma P3) :=
  rel_ok (getTrace_ok _ S.gamR P1) (getTrace_ok _ S.gamR P2) (getTrace_ok _ S.gamR P3) (LV.map _ fun _ _ => node_mix h _ _)

theorem ap_mix (S : Setup iter e n order k G) {f1 f2 f3 : Arr (n + 2)} (h : AV m f1 f2 f3) :
    Rel3 (AV (n := n) m) (calcApSolF iter e order k G f1) (calcApSolF iter e order k G f2) (calcApSolF iter e order k G f3) := by
  obtain ⟨u1, e1, p1, m1⟩ := calcApSolF_ok S.hit S.hN S.ho S.hAD S.hz S.core f1
  obtain ⟨u2, e2, p2, m2⟩ := calcApSolF_ok S.hit S.hN S.ho S.hAD S.hz S.core f2
  obtain ⟨u3, e3, p3, m3⟩ := calcApSolF_ok S.hit S.hN S.ho S.hAD S.hz S.core f3
  refine rel_ok e1 e2 e3 ?_
  let u' : Arr n := fun a b => m.app (u1 a b) (u2 a b)
  have hu' : AV m u1 u2 u' := fun _ _ => rfl
  have : u3 = u' := by
    apply LN_inj S.ho S.hAD S.hz
    intro q hq
    rcases (S.core.m0 q).2 hq with hp | hp
    · rw [LN_mix hu', p1 q hp, p2 q hp, p3 q hp, B4_mix m (fullNode_mix h)]
    · rw [LN_mix hu', m1 q hp, m2 q hp, m3 q hp, Mix.app_zero]
  rw [this]
  exact hu'

theorem vecSub_mix {L : ℕ} {x1 x2 x3 y1 y2 y3 : List ℂ} (h : LV m L x1 x2 x3) (h' : LV m L y1 y2 y3) :
    Rel3 (LV m L) (vecSub x1 y1) (vecSub x2 y2) (vecSub x3 y3) := by
  unfold vecSub
  rw [if_pos (h.1.trans h'.1.symm), if_pos (h.2.1.trans h'.2.1.symm), if_pos (h.len.trans h'.len.symm)]
  refine Rel3.pure (LV.of (by simp [h.1, h'.1]) (by simp [h.2.1, h'.2.1]) (by simp [h.len, h'.len]) fun l _ => ?_)
  rw [getD_zipWith _ (sub_zero 0) _ _ (h.1.trans h'.1.symm), getD_zipWith _ (sub_zero 0) _ _ (h.2.1.trans h'.2.1.symm),
    getD_zipWith _ (sub_zero 0) _ _ (h.len.trans h'.len.symm), h.getD, h'.getD, Mix.app_sub]

theorem vecAdd_mix {L : ℕ} {x1 x2 x3 y1 y2 y3 : List ℂ} (h : LV m L x1 x2 x3) (h' : LV m L y1 y2 y3) :
    Rel3 (LV m L) (vecAdd x1 y1) (vecAdd x2 y2) (vecAdd x3 y3) := by
  unfold vecAdd
  rw [if_pos (h.1.trans h'.1.symm), if_pos (h.2.1.trans h'.2.1.symm), if_pos (h.len.trans h'.len.symm)]
  refine Rel3.pure (LV.of (by simp [h.1, h'.1]) (by simp [h.2.1, h'.2.1]) (by simp [h.len, h'.len]) fun l _ => ?_)
  rw [getD_zipWith _ (add_zero 0) _ _ (h.1.trans h'.1.symm), getD_zipWith _ (add_zero 0) _ _ (h.2.1.trans h'.2.1.symm),
    getD_zipWith _ (add_zero 0) _ _ (h.len.trans h'.len.symm), h.getD, h'.getD, Mix.app_add]

theorem neg_mix {L : ℕ} {x1 x2 x3 : List ℂ} (h : LV m L x1 x2 x3) :
    LV m L (x1.map fun z => -z) (x2.map fun z => -z) (x3.map fun z => -z) := by
  refine ⟨by simp [h.1], by simp [h.2.1], ?_⟩
  rw [h.2.2, List.map_zipWith, List.zipWith_map]
  simp only [Mix.app_neg]

theorem matVec_mix {L M : ℕ} {Q : List (List ℂ)} (hr : ∀ col ∈ Q, ∀ z ∈ col, conj z = z) {c1 c2 c3 : List ℂ}
    (h : LV m L c1 c2 c3) : Rel3 (LV m M) (matVec M Q c1) (matVec M Q c2) (matVec M Q c3) := by
  unfold matVec
  by_cases hl : Q.length = L
  · rw [if_pos (hl.trans h.1.symm), if_pos (hl.trans h.2.1.symm), if_pos (hl.trans h.len.symm)]
    refine Rel3.pure ?_
    have := LV.map (m := m) (List.range M) (f := fun l => ((Q.zip c1).map fun p => p.1.getD l 0 * p.2).sum)
      (g := fun l => ((Q.zip c2).map fun p => p.1.getD l 0 * p.2).sum)
      (h := fun l => ((Q.zip c3).map fun p => p.1.getD l 0 * p.2).sum) fun l _ => ?_
    · rwa [List.length_range] at this
    · rw [zip_getD_sum _ _ _ (hl.trans h.1.symm), zip_getD_sum _ _ _ (hl.trans h.2.1.symm),
        zip_getD_sum _ _ _ (hl.trans h.len.symm), Mix.app_sum]
      refine sum_congr rfl fun j hj => ?_
      rw [h.getD, Mix.app_mul]
      have hcol : Q.getD j [] ∈ Q := by
        rw [List.getD_eq_getElem _ _ (mem_range.1 hj)]; exact List.getElem_mem _
      by_cases hi : l < (Q.getD j []).length
      · exact hr _ hcol _ (by rw [List.getD_eq_getElem _ _ hi]; exact List.getElem_mem hi)
      · rw [List.getD_eq_default _ _ (not_lt.1 hi), map_zero]
  · intro a b h1
    rw [if_neg (fun hh => hl (hh.trans h.1))] at h1
    cases h1

end

/-! ## Columns -/

theorem Rel3.same' {α : Type} (x : Py α) : Rel3 (fun a b c => b = a ∧ c = a ∧ x = .ok a) x x x := by
  intro a1 a2 h1 h2
  exact ⟨a1, h1, by rw [h1] at h2; exact (Except.ok.inj h2).symm, rfl, h1⟩

theorem qColumn_real {iter : Iter} {s : PSolver} {n : ℕ} (S : Setup iter s.e n s.order s.k s.G) (R : Ready s) {JJ : ℕ}
    (hJ : JJ < s.bas.bDesc.length) (i : Fin 2) {a : List ℂ} (h : qColumn n iter s i JJ = .ok a) :
    a.length = s.G.unionGamma.length ∧ ∀ z ∈ a, conj z = z := by
  have key : Rel3 (LV Mix.conj s.G.unionGamma.length) (qColumn n iter s i JJ) (qColumn n iter s i JJ) (qColumn n iter s i JJ) := by
    unfold qColumn
    have hb : Rel3 (LV Mix.conj s.G.unionGamma.length) (extendBasis s JJ i) (extendBasis s JJ i) (extendBasis s JJ i) := by
      rw [extendBasis_eq]
      exact homo_mix (m := Mix.conj) R (ξ1 := .basis JJ i) (ξ2 := .basis JJ i) (ξ3 := .basis JJ i) hJ hJ hJ
        fun i' JJ' => by rw [Mix.conj_app]; unfold XiSrc.val; simp only []; split_ifs <;> simp
    refine Rel3.bind hb fun x1 x2 x3 hx => ?_
    refine Rel3.bind (pot_mix S hx) fun p1 p2 p3 hp => ?_
    refine Rel3.bind (trace_mix S hp) fun t1 t2 t3 ht => ?_
    exact vecSub_mix ht hx
  obtain ⟨a', h', hl⟩ := key a a h h
  rw [h] at h'
  cases h'
  exact ⟨hl.1, real_of_conj hl⟩

theorem getQ_real {iter : Iter} {s : PSolver} {n : ℕ} (S : Setup iter s.e n s.order s.k s.G) (R : Ready s) (i : Fin 2)
    {Q : List (List ℂ)} (h : getQ n iter s i = .ok Q) :
    Q.length = s.bas.bDesc.length ∧ ∀ col ∈ Q, col.length = s.G.unionGamma.length ∧ ∀ z ∈ col, conj z = z := by
  unfold getQ at h
  rcases e : (List.range s.bas.bDesc.length).mapM (qColumn n iter s i) with er | C
  · rw [e, error_bind] at h; cases h
  rw [e, ok_bind] at h
  split_ifs at h with hne
  cases h
  clear hne
  rw [mapM_ok_iff] at e
  refine ⟨by rw [← e.length_eq, List.length_range], fun col hcol => ?_⟩
  obtain ⟨JJ, hJ, hq⟩ : ∃ JJ ∈ List.range s.bas.bDesc.length, qColumn n iter s i JJ = .ok col := by
    revert e
    generalize List.range s.bas.bDesc.length = l
    intro e
    induction e with
    | nil => simp at hcol
    | cons hab _ ih =>
      rcases List.mem_cons.1 hcol with rfl | hc
      · exact ⟨_, by simp, hab⟩
      · obtain ⟨JJ, h1, h2⟩ := ih hc
        exact ⟨JJ, List.mem_cons_of_mem _ h1, h2⟩
  exact qColumn_real S R (List.mem_range.1 hJ) i hq

/-! ## The fit -/

theorem fit_mix {m : Mix} {fit : Chebfit} (hfit : IsChebfit fit) {J d : ℕ} (hd : 1 ≤ d) (hdJ : d ≤ J) {f1 f2 f3 : ℝ → ℂ}
    (h : ∀ t, f3 t = m.app (f1 t) (f2 t)) :
    LV m d (fit (chebRoots J) ((chebRoots J).map f1) d) (fit (chebRoots J) ((chebRoots J).map f2) d)
      (fit (chebRoots J) ((chebRoots J).map f3) d) := by
  obtain ⟨l1, m1⟩ := hfit (chebRoots J) ((chebRoots J).map f1) d (by simp) hd
  obtain ⟨l2, m2⟩ := hfit (chebRoots J) ((chebRoots J).map f2) d (by simp) hd
  obtain ⟨l3, m3⟩ := hfit (chebRoots J) ((chebRoots J).map f3) d (by simp) hd
  let A : Fin (chebRoots J).length → Fin d → ℂ := fun i j => (((Polynomial.Chebyshev.T ℝ (j : ℕ)).eval (chebRoots J)[i] : ℝ) : ℂ)
  have hA : ∀ i j, conj (A i j) = A i j := fun i j => Complex.conj_ofReal _
  have hs : ∀ c : List ℂ, c.length = d → ∀ i : Fin (chebRoots J).length,
      chebSeries c (chebRoots J)[i] = mv A (fun j => c.getD j 0) i := by
    intro c hc i
    rw [chebSeries_sum, hc]
    unfold mv
    rw [← Fin.sum_univ_eq_sum_range (fun j => c.getD j 0 * (((Polynomial.Chebyshev.T ℝ (j : ℕ)).eval (chebRoots J)[i] : ℝ) : ℂ))]
    exact sum_congr rfl fun j _ => mul_comm _ _
  have hsum : ∀ g : ℝ → ℝ, ((chebRoots J).map g).sum = ∑ i : Fin (chebRoots J).length, g (chebRoots J)[i] := by
    intro g
    rw [← List.sum_ofFn]
    congr 1
    apply List.ext_getElem <;> simp
  have hres : ∀ (f : ℝ → ℂ) (c : List ℂ), c.length = d → residual (chebRoots J) ((chebRoots J).map f) c =
      ∑ i, ‖mv A (fun j => c.getD j 0) i - f (chebRoots J)[i]‖ ^ 2 := by
    intro f c hc
    rw [residual_eq, hsum]
    exact sum_congr rfl fun i _ => by rw [hs c hc]
  have hnorm : ∀ (f : ℝ → ℂ) (c : List ℂ), c.length = d →
      (∀ e : List ℂ, e.length = d → residual (chebRoots J) ((chebRoots J).map f) c ≤
        residual (chebRoots J) ((chebRoots J).map f) e) →
      ∀ e, ∑ i, conj (mv A e i) * (mv A (fun j => c.getD j 0) i - f (chebRoots J)[i]) = 0 := by
    intro f c hc hmin
    refine normal_of_min (b := fun i => f (chebRoots J)[i]) fun e => ?_
    have := hmin (List.ofFn e) (by simp)
    rwa [hres f c hc, hres f _ (by simp), getD_ofFn'] at this
  have n1 := hnorm f1 _ l1 m1
  have n2 := hnorm f2 _ l2 m2
  have n3 := hnorm f3 _ l3 m3
  generalize fit (chebRoots J) ((chebRoots J).map f1) d = c1 at *
  generalize fit (chebRoots J) ((chebRoots J).map f2) d = c2 at *
  generalize fit (chebRoots J) ((chebRoots J).map f3) d = c3 at *
  have n3' := eqn_mix hA m n1 n2
  have hz : ∀ l, (List.zipWith m.app c1 c2).getD l 0 = m.app (c1.getD l 0) (c2.getD l 0) :=
    getD_zipWith _ (Mix.app_zero m) _ _ (l1.trans l2.symm)
  refine ⟨l1, l2, cheb_unique hdJ l3 (by simp [l1, l2]) fun t ht => ?_⟩
  obtain ⟨i, hi, rfl⟩ := List.getElem_of_mem ht
  have := normal_image (b := fun i => m.app (f1 (chebRoots J)[i]) (f2 (chebRoots J)[i])) (c := fun j => c3.getD j 0)
    (fun e => by simpa only [h] using n3 e) n3' ⟨i, hi⟩
  have e1 := hs c3 l3 ⟨i, hi⟩
  have e2 := hs (List.zipWith m.app c1 c2) (by simp [l1, l2]) ⟨i, hi⟩
  simp only [hz] at e2
  exact e1.trans (this.trans e2.symm)

theorem LV.append {m : Mix} {L L' : ℕ} {a b c a' b' c' : List ℂ} (h : LV m L a b c) (h' : LV m L' a' b' c') :
    LV m (L + L') (a ++ a') (b ++ b') (c ++ c') := by
  refine ⟨by simp [h.1, h'.1], by simp [h.2.1, h'.2.1], ?_⟩
  rw [h.2.2, h'.2.2, List.zipWith_append (h.1.trans h.2.1.symm)]

theorem chebCoef_mix {m : Mix} {eps a R : ℝ} {fit : Chebfit} (hfit : IsChebfit fit) {J p q : ℕ} (hp : 1 ≤ p) (hq : 1 ≤ q)
    (hpJ : p ≤ J) (hqJ : q ≤ J) (sid : Fin 3) {f1 f2 f3 : ℝ → ℂ} (h : ∀ t, f3 t = m.app (f1 t) (f2 t)) :
    Rel3 (LV m (nBasisBySid p q sid)) (chebCoef eps a R fit (chebRoots J) (setupBasis p q) sid f1)
      (chebCoef eps a R fit (chebRoots J) (setupBasis p q) sid f2)
      (chebCoef eps a R fit (chebRoots J) (setupBasis p q) sid f3) := by
  have hl : sid.val < (setupBasis p q).segDesc.length := by
    rw [(C40_layout p q).1]; exact sid.isLt
  obtain ⟨-, e2, -⟩ := C40_entries p q sid _ (List.getElem?_eq_getElem hl)
  have h1 : 1 ≤ nBasisBySid p q sid := by fin_cases sid <;> simpa [nBasisBySid]
  have h2 : nBasisBySid p q sid ≤ J := by fin_cases sid <;> simpa [nBasisBySid]
  simp only [chebCoef, List.getElem?_eq_getElem hl]
  rw [if_neg (by omega), if_neg (by omega), if_neg (by omega), e2]
  exact Rel3.pure (fit_mix hfit h1 h2 fun t => h _)

theorem calcC0_mix {m : Mix} {eps a R : ℝ} {fit : Chebfit} (hfit : IsChebfit fit) {J p q : ℕ} (hp : 1 ≤ p) (hq : 1 ≤ q)
    (hpJ : p ≤ J) (hqJ : q ≤ J) {b1 b2 b3 : ℝ → Fin 3 → ℂ} (h : ∀ t sid, b3 t sid = m.app (b1 t sid) (b2 t sid)) :
    Rel3 (LV m (p + 2 * q)) (calcC0 eps a R fit (chebRoots J) (setupBasis p q) b1)
      (calcC0 eps a R fit (chebRoots J) (setupBasis p q) b2) (calcC0 eps a R fit (chebRoots J) (setupBasis p q) b3) := by
  have key := fun sid => chebCoef_mix (m := m) (eps := eps) (a := a) (R := R) hfit hp hq hpJ hqJ sid
    (f1 := fun t => b1 t sid) (f2 := fun t => b2 t sid) (f3 := fun t => b3 t sid) fun t => h t sid
  unfold calcC0
  simp only [List.foldlM_cons, List.foldlM_nil, bind_assoc, pure_bind]
  refine Rel3.bind (key 0) fun x1 x2 x3 hx => ?_
  refine Rel3.bind (key 1) fun y1 y2 y3 hy => ?_
  refine Rel3.bind (key 2) fun z1 z2 z3 hz => ?_
  refine Rel3.pure ?_
  have := (hx.append hy).append hz
  have e : nBasisBySid p q 0 + nBasisBySid p q 1 + nBasisBySid p q 2 = p + 2 * q := by simp [nBasisBySid]; omega
  rwa [e] at this

end Pot
