import Verif.Props.Extend
import Verif.Props.Potential
import Verif.Props.Basis
import Verif.Spec.Lstsq

/-! # The variational system and `run`: C23, C65 -/

namespace Pot
open Spec Finset Real

theorem map_eq_ofFn {α : Type} (l : List α) (g : α → ℂ) : l.map g = List.ofFn fun i : Fin l.length => g l[i] := by
  apply List.ext_getElem <;> simp

theorem getD_ofFn {m : ℕ} (v : Fin m → ℂ) (l : ℕ) (hl : l < m) : (List.ofFn v).getD l 0 = v ⟨l, hl⟩ := by
  simp [List.getD_eq_getElem?_getD, List.getElem?_ofFn, hl]

/-- trace of the potential as a linear map of the nodal values -/
theorem pot_trace {iter : Iter} {e : Env} {n order : ℕ} {k : ℝ} {G : PsGrids} (S : Setup iter e n order k G) :
    ∃ T : (Node → ℂ) →ₗ[ℂ] (Fin G.unionGamma.length → ℂ), ∀ g : Node → ℂ, ∃ P : Arr n,
      getPotential iter e order k G (G.unionGamma.map g) = .ok P ∧
      getTrace G.unionGamma P = .ok (List.ofFn (T g)) ∧
      ∀ ap : Arr n, getTrace G.unionGamma (fun a b => P a b + ap a b) =
        .ok (List.ofFn fun l => T g l + node ap (G.unionGamma[l]).1 (G.unionGamma[l]).2) := by
  obtain ⟨T, hT, -⟩ := C20_projection S
  refine ⟨T ∘ₗ LinearMap.funLeft ℂ ℂ fun l : Fin G.unionGamma.length => G.unionGamma[l], fun g => ?_⟩
  obtain ⟨w, P, hP, -⟩ := S.pot (G.unionGamma.map g) (by simp)
  have h := hT fun l => g G.unionGamma[l]
  rw [← map_eq_ofFn, hP, ok_bind] at h
  refine ⟨P, hP, h, fun ap => ?_⟩
  rw [getTrace_ok _ S.gamR, map_eq_ofFn] at h ⊢
  have h2 := List.ofFn_injective (Except.ok.inj h)
  refine congrArg _ (congrArg _ (funext fun l => ?_))
  have h3 := congrFun h2 l
  rw [node_add, h3]
  rfl

theorem zip_sum (L : ℕ) (F : ℕ → ℂ) (c : List ℂ) (hc : c.length = L) :
    ((((List.range L).map F).zip c).map fun p => p.1 * p.2).sum = ∑ j ∈ range L, F j * c.getD j 0 := by
  subst hc
  induction c generalizing F with
  | nil => simp
  | cons x c ih =>
    rw [List.length_cons, List.range_succ_eq_map, sum_range_succ']
    simp only [List.map_cons, List.map_map, List.zip_cons_cons, List.sum_cons]
    have := ih (F ∘ Nat.succ)
    rw [this]
    simp [add_comm]

/-- the extension of the inhomogeneous part is a value per node, and it is added to the homogeneous one -/
theorem extend_total {s : PSolver} (R : Ready s) {extF : List ℂ} (hF : extendInhomoF s = .ok extF) {src : XiSrc}
    {m : Multivalue} {V : Node → ℂ} (hm : mvExtendHomo s src = .ok m) (hV : mvReduce m = .ok (s.G.unionGamma.map V))
    (hsrc : ∀ JJ i, src ≠ .basis JJ i) :
    ∃ W : Node → ℂ, extF = s.G.unionGamma.map W ∧ (s.src.homogeneous = true → ∀ nd, W nd = 0) ∧
      extendBoundary s src = .ok (s.G.unionGamma.map fun nd => V nd + W nd) := by
  unfold extendInhomoF at hF
  rcases hi : mvExtendInhomo s with er | mi
  · rw [hi, error_bind] at hF; cases hF
  rw [hi, ok_bind] at hF
  obtain ⟨et, res, hs, hmi⟩ := mvLoop_inv hi
  obtain ⟨-, hred⟩ := mvLoop_reduce R hs
  rw [← hmi, hF] at hred
  have hextF := Except.ok.inj hred
  by_cases hh : s.src.homogeneous = true
  · have hz : ∀ sid, ∀ nd ∈ s.G.allGamma sid, (res sid nd).2 = 0 := by
      intro sid nd hnd
      have := (hs sid nd hnd).2.2
      unfold doInhomo at this
      rw [if_pos hh, pure_eq_ok] at this
      rw [← Except.ok.inj this]
    refine ⟨fun _ => 0, ?_, fun _ _ => rfl, ?_⟩
    · rw [hextF]
      refine List.map_congr_left fun nd _ => ?_
      rw [mean_items]
      have : ((visits s.G nd).map fun p => (res p.1 p.2).2).sum = 0 := by
        refine List.sum_eq_zero fun x hx => ?_
        obtain ⟨p, hp, rfl⟩ := List.mem_map.1 hx
        unfold visits at hp
        obtain ⟨sid, -, hp⟩ := List.mem_flatMap.1 hp
        obtain ⟨q, hq, rfl⟩ := List.mem_map.1 hp
        exact hz sid q (List.mem_of_mem_filter hq)
      rw [this, zero_div]
    · unfold extendBoundary mvExtendBoundary
      rw [hm, ok_bind]
      simp only [hh, Bool.or_true, Bool.true_or, if_true, pure_eq_ok, ok_bind, hV, add_zero]
  · refine ⟨_, hextF, fun h => absurd h hh, ?_⟩
    obtain ⟨hn, hl, r, hr⟩ := C33_aligned s src m mi hm hi
    have hal : Aligned m mi := by
      intro nd hnd
      refine ⟨hn ▸ hnd, fun i hi => ?_⟩
      have hlen : (m.data nd).length = (mi.data nd).length := by
        rw [← List.length_map (f := Entry.setype), hl nd, List.length_map]
      refine ⟨by omega, ?_⟩
      have h3 := congrArg (fun l => l[i]?) (hl nd)
      simp only [List.getElem?_map, List.getElem?_eq_getElem hi, List.getElem?_eq_getElem (hlen ▸ hi)] at h3
      simpa using h3
    have hsum := C34_reduce_add m mi r _ _ hn hal
      (fun nd _ => by rw [← List.length_map (f := Entry.setype), hl nd, List.length_map]) hr hV (hF.trans hred)
    have hcond : ∀ (b : Bool), (b || s.src.homogeneous || false) = b := by simp [hh]
    unfold extendBoundary mvExtendBoundary
    rw [hm, ok_bind]
    rcases src with ⟨JJ, i⟩ | ⟨c0, c1⟩
    · exact absurd rfl (hsrc JJ i)
    · simp only [Bool.false_or, hh, Bool.false_eq_true, if_false]
      rw [hi, ok_bind, hr, ok_bind, hsum, List.zipWith_map_left, List.zipWith_map_right, List.zipWith_self]

theorem getQ_ok {iter : Iter} {s : PSolver} {n : ℕ} {V : XiSrc → Node → ℂ}
    {T : (Node → ℂ) →ₗ[ℂ] (Fin s.G.unionGamma.length → ℂ)}
    (hT : ∀ g : Node → ℂ, ∃ P : Arr n, getPotential iter s.e s.order s.k s.G (s.G.unionGamma.map g) = .ok P ∧
      getTrace s.G.unionGamma P = .ok (List.ofFn (T g)))
    (hE : ∀ JJ, JJ < s.bas.bDesc.length → ∀ i, extendBasis s JJ i = .ok (s.G.unionGamma.map (V (.basis JJ i))))
    (hB : s.bas.bDesc ≠ []) (i : Fin 2) :
    getQ n iter s i = .ok ((List.range s.bas.bDesc.length).map fun JJ =>
      List.ofFn fun l => T (V (.basis JJ i)) l - V (.basis JJ i) s.G.unionGamma[l]) := by
  unfold getQ
  have hm : (List.range s.bas.bDesc.length).mapM (qColumn n iter s i) =
      .ok ((List.range s.bas.bDesc.length).map fun JJ =>
        List.ofFn fun l => T (V (.basis JJ i)) l - V (.basis JJ i) s.G.unionGamma[l]) := by
    rw [mapM_ok_iff, List.forall₂_map_right_iff, List.forall₂_same]
    intro JJ hJ
    obtain ⟨P, hP, ht⟩ := hT (V (.basis JJ i))
    unfold qColumn vecSub
    rw [hE JJ (List.mem_range.1 hJ) i, ok_bind, hP, ok_bind, ht, ok_bind, if_pos (by simp), pure_eq_ok]
    congr 1
    apply List.ext_getElem <;> simp
  rw [hm, ok_bind, if_neg, pure_eq_ok]
  simpa using hB

theorem matVec_ok (m L : ℕ) (F : ℕ → Fin m → ℂ) (c : List ℂ) (hc : c.length = L) :
    matVec m ((List.range L).map fun JJ => List.ofFn (F JJ)) c =
      .ok (List.ofFn fun l => ∑ JJ ∈ range L, F JJ l * c.getD JJ 0) := by
  unfold matVec
  rw [if_pos (by simp [hc]), pure_eq_ok]
  congr 1
  refine List.ext_getElem (by simp) fun l h1 h2 => ?_
  have hl : l < m := by simpa using h1
  simp only [List.getElem_map, List.getElem_range, List.getElem_ofFn]
  rw [← zip_sum L (fun JJ => F JJ ⟨l, hl⟩) c hc]
  rw [List.zip_map_left, List.zip_map_left, List.map_map, List.map_map]
  congr 1
  refine List.map_congr_left fun p _ => ?_
  simp only [Function.comp, Prod.map]
  rw [getD_ofFn _ l hl]

/-- **C23** everything `get_var` and `run` compute from `c0` and `c1` succeeds, and the residual of the linear
system is the defect of the final extension under the inhomogeneous projection. -/
theorem C23_residual {iter : Iter} {s : PSolver} {n : ℕ} (S : Setup iter s.e n s.order s.k s.G) (R : Ready s)
    (hB : s.bas.bDesc ≠ []) {extF : List ℂ} (hF : extendInhomoF s = .ok extF) (ap : Arr n) {c0 c1 : List ℂ}
    (h0 : c0.length = s.bas.bDesc.length) (h1 : c1.length = s.bas.bDesc.length) :
    ∃ Q1 rhs q ext tr, ∃ u : Arr n, getVar iter s ap c0 = .ok (Q1, rhs) ∧
      matVec s.G.unionGamma.length Q1 c1 = .ok q ∧ extendBoundary s (.full c0 c1) = .ok ext ∧
      regularPart iter s.e s.order s.k s.G ext ap = .ok u ∧ getTrace s.G.unionGamma u = .ok tr ∧
      q.length = s.G.unionGamma.length ∧ rhs.length = s.G.unionGamma.length ∧
      ext.length = s.G.unionGamma.length ∧ tr.length = s.G.unionGamma.length ∧
      (Q1.length = s.bas.bDesc.length ∧ ∀ col ∈ Q1, col.length = s.G.unionGamma.length) ∧
      ∀ l, l < s.G.unionGamma.length → q.getD l 0 - rhs.getD l 0 = tr.getD l 0 - ext.getD l 0 := by
  obtain ⟨V, hV, hlin⟩ := extend_closed R
  obtain ⟨T, hT⟩ := pot_trace S
  have hE : ∀ JJ, JJ < s.bas.bDesc.length → ∀ i, extendBasis s JJ i = .ok (s.G.unionGamma.map (V (.basis JJ i))) := by
    intro JJ hJ i
    obtain ⟨m, h1, -, h2⟩ := hV (.basis JJ i) hJ
    unfold extendBasis extendBoundary mvExtendBoundary
    rw [h1, ok_bind]
    simp only [Bool.true_or, if_true, pure_eq_ok, ok_bind, h2]
  obtain ⟨m, hm1, -, hm2⟩ := hV (.full c0 c1) ⟨h0.ge, h1.ge⟩
  obtain ⟨W, hW, -, hext⟩ := extend_total R hF hm1 hm2 (fun _ _ h => by cases h)
  have hT' : ∀ g : Node → ℂ, ∃ P : Arr n, getPotential iter s.e s.order s.k s.G (s.G.unionGamma.map g) = .ok P ∧
      getTrace s.G.unionGamma P = .ok (List.ofFn (T g)) := fun g => by
    obtain ⟨P, a, b, -⟩ := hT g
    exact ⟨P, a, b⟩
  have hQ := getQ_ok hT' hE hB
  obtain ⟨PF, hPF, -, htF⟩ := hT W
  obtain ⟨PU, hPU, -, htU⟩ := hT fun nd => V (.full c0 c1) nd + W nd
  have hq0 := matVec_ok s.G.unionGamma.length s.bas.bDesc.length
    (fun JJ l => T (V (.basis JJ 0)) l - V (.basis JJ 0) s.G.unionGamma[l]) c0 h0
  have hq1 := matVec_ok s.G.unionGamma.length s.bas.bDesc.length
    (fun JJ l => T (V (.basis JJ 1)) l - V (.basis JJ 1) s.G.unionGamma[l]) c1 h1
  have hvar : getVar iter s ap c0 = .ok ((List.range s.bas.bDesc.length).map fun JJ =>
      List.ofFn fun l => T (V (.basis JJ 1)) l - V (.basis JJ 1) s.G.unionGamma[l], List.ofFn fun l =>
      -(∑ JJ ∈ range s.bas.bDesc.length, (T (V (.basis JJ 0)) l - V (.basis JJ 0) s.G.unionGamma[l]) * c0.getD JJ 0) +
        W s.G.unionGamma[l] - (T W l + node ap (s.G.unionGamma[l]).1 (s.G.unionGamma[l]).2)) := by
    unfold getVar
    rw [hQ 0, ok_bind, hQ 1, ok_bind, hF, ok_bind, hW, hPF, ok_bind, htF, ok_bind, hq0, ok_bind]
    unfold vecAdd vecSub
    rw [if_pos (by simp), pure_eq_ok, ok_bind, if_pos (by simp), pure_eq_ok, ok_bind, pure_eq_ok]
    congr 2
    apply List.ext_getElem <;> simp
  refine ⟨_, _, _, _, _, _, hvar, hq1, hext, ?_, htU ap, by simp, by simp, by simp, by simp, ⟨by simp, by simp⟩,
    fun l hl => ?_⟩
  · unfold regularPart
    rw [hPU, ok_bind, pure_eq_ok]
  rw [getD_ofFn _ l hl, getD_ofFn _ l hl, getD_ofFn _ l hl, map_eq_ofFn, getD_ofFn _ l hl]
  have hfull : (fun nd => V (.full c0 c1) nd + W nd) =
      (∑ JJ ∈ range s.bas.bDesc.length, (c0.getD JJ 0 • V (.basis JJ 0) + c1.getD JJ 0 • V (.basis JJ 1))) + W := by
    funext nd
    rw [hlin, Pi.add_apply, Finset.sum_apply]
    rfl
  rw [hfull, map_add, map_sum, hlin]
  simp only [map_add, map_smul, Pi.add_apply, Finset.sum_apply, Pi.smul_apply, smul_eq_mul, sum_add_distrib, sub_mul,
    sum_sub_distrib]
  have hc : ∀ (c : List ℂ) (F : ℕ → ℂ), ∑ x ∈ range s.bas.bDesc.length, F x * c.getD x 0 =
      ∑ x ∈ range s.bas.bDesc.length, c.getD x 0 * F x := fun c F => sum_congr rfl fun x _ => mul_comm _ _
  simp only [hc]
  ring

/-- **C23** a zero residual means that the solution found by `run` has the final extension as its trace. -/
theorem C23_fixed_point {iter : Iter} {s : PSolver} {n : ℕ} (S : Setup iter s.e n s.order s.k s.G) (R : Ready s)
    (hB : s.bas.bDesc ≠ []) {extF : List ℂ} (hF : extendInhomoF s = .ok extF) (ap : Arr n) {c0 c1 : List ℂ}
    (h0 : c0.length = s.bas.bDesc.length) (h1 : c1.length = s.bas.bDesc.length) {Q1 : List (List ℂ)} {rhs : List ℂ}
    (hv : getVar iter s ap c0 = .ok (Q1, rhs)) (hz : matVec s.G.unionGamma.length Q1 c1 = .ok rhs) :
    ∃ ext, ∃ u : Arr n, extendBoundary s (.full c0 c1) = .ok ext ∧
      regularPart iter s.e s.order s.k s.G ext ap = .ok u ∧ getTrace s.G.unionGamma u = .ok ext := by
  obtain ⟨Q1', rhs', q, ext, tr, u, e1, e2, e3, e4, e5, l1, l2, l3, l4, -, hl⟩ := C23_residual S R hB hF ap h0 h1
  rw [hv] at e1
  cases e1
  rw [hz] at e2
  cases e2
  refine ⟨ext, u, e3, e4, e5.trans (congrArg _ ?_)⟩
  refine List.ext_getElem (by omega) fun l ha hb => ?_
  have := hl l (by omega)
  rw [sub_self, List.getD_eq_getElem?_getD, List.getD_eq_getElem?_getD, List.getElem?_eq_getElem ha,
    List.getElem?_eq_getElem hb] at this
  exact (sub_eq_zero.1 this.symm)

theorem mplus_inR {iter : Iter} (hit : IsIter iter) {e : Env} {n order : ℕ} (hN : e.N = n + 1) {G : PsGrids}
    (h : psConstructGrids iter e order = .ok G) : ∀ q ∈ G.Mplus, InR n q := by
  obtain ⟨hg, -⟩ := psGrids_sets hit h
  obtain ⟨-, c2, -, c4, -, -⟩ := C09_partition hit e.N order e.interior
  rw [← hg] at c2 c4
  intro q hq
  have h1 : q ∈ G.M0 := by rw [← c4]; exact Finset.mem_union_left _ hq
  have := (c2 q.1 q.2).1 h1
  rw [hN] at this
  unfold InR
  push_cast at this
  omega

theorem pyMax_ok (x : ℝ) (t : List ℝ) :
    ∃ m, pyMax (x :: t) = .ok m ∧ m ∈ x :: t ∧ ∀ y ∈ x :: t, y ≤ m := by
  refine ⟨t.foldl max x, rfl, ?_⟩
  induction t generalizing x with
  | nil => simp
  | cons z t ih =>
    obtain ⟨h1, h2⟩ := ih (max x z)
    rw [List.foldl_cons]
    constructor
    · rcases List.mem_cons.1 h1 with h | h
      · rw [h]
        rcases max_choice x z with hc | hc <;> rw [hc] <;> simp
      · simp [h]
    · intro y hy
      simp only [List.mem_cons] at hy h2
      rcases hy with rfl | rfl | hy
      · exact (le_max_left _ _).trans (h2 _ (Or.inl rfl))
      · exact (le_max_right _ _).trans (h2 _ (Or.inl rfl))
      · exact h2 y (Or.inr hy)

/-- **C65** `eval_error` -/
theorem C65_eval_error {iter : Iter} (hit : IsIter iter) {e : Env} {n order : ℕ} (hN : e.N = n + 1) {G : PsGrids}
    (h : psConstructGrids iter e order = .ok G) (u : Arr n) :
    evalError iter e G none u = .ok none ∧
    ∀ ex : ℝ → ℝ → ℂ,
      (G.Mplus = ∅ → evalError iter e G (some ex) u = .error .valueError) ∧
      (G.Mplus ≠ ∅ → ∃ m, evalError iter e G (some ex) u = .ok (some m) ∧
        (∀ a b : Fin n, ((a : ℤ) + 1, (b : ℤ) + 1) ∈ G.Mplus →
          ‖ex (e.coord ((a : ℤ) + 1, (b : ℤ) + 1)).1 (e.coord ((a : ℤ) + 1, (b : ℤ) + 1)).2 - u a b‖ ≤ m) ∧
        ∃ a b : Fin n, ((a : ℤ) + 1, (b : ℤ) + 1) ∈ G.Mplus ∧
          m = ‖ex (e.coord ((a : ℤ) + 1, (b : ℤ) + 1)).1 (e.coord ((a : ℤ) + 1, (b : ℤ) + 1)).2 - u a b‖) := by
  refine ⟨rfl, fun ex => ?_⟩
  have hin := mplus_inR hit hN h
  have hl : ∀ nd, nd ∈ iter 8 G.Mplus ↔ nd ∈ G.Mplus := (hit 8 G.Mplus).2
  have hmap : ((iter 8 G.Mplus).mapM fun nd => do
      let v ← arrGet u (nd.1 - 1) (nd.2 - 1)
      return ‖ex (e.coord nd).1 (e.coord nd).2 - v‖ : Py (List ℝ)) =
      .ok ((iter 8 G.Mplus).map fun nd => ‖ex (e.coord nd).1 (e.coord nd).2 - node u nd.1 nd.2‖) := by
    rw [mapM_ok_iff, List.forall₂_map_right_iff, List.forall₂_same]
    intro nd hnd
    rw [arrGet_ok u (hin nd ((hl nd).1 hnd)), ok_bind, pure_eq_ok]
  have hev : evalError iter e G (some ex) u = (do
      let m ← pyMax ((iter 8 G.Mplus).map fun nd => ‖ex (e.coord nd).1 (e.coord nd).2 - node u nd.1 nd.2‖)
      return some m) := by
    unfold evalError
    simp only []
    rw [hmap, ok_bind]
  rw [hev]
  constructor
  · intro h0
    have : iter 8 G.Mplus = [] := by
      rw [List.eq_nil_iff_forall_not_mem]
      intro nd hnd
      have := (hl nd).1 hnd
      rw [h0] at this
      simp at this
    rw [this]
    rfl
  · intro h0
    obtain ⟨nd0, hnd0⟩ := Finset.nonempty_iff_ne_empty.2 h0
    rcases hi : iter 8 G.Mplus with _ | ⟨x, t⟩
    · have := (hl nd0).2 hnd0
      rw [hi] at this
      simp at this
    rw [List.map_cons]
    obtain ⟨m, hm1, hm2, hm3⟩ := pyMax_ok (‖ex (e.coord x).1 (e.coord x).2 - node u x.1 x.2‖)
      (t.map fun nd => ‖ex (e.coord nd).1 (e.coord nd).2 - node u nd.1 nd.2‖)
    rw [← List.map_cons (f := fun nd : Node => ‖ex (e.coord nd).1 (e.coord nd).2 - node u nd.1 nd.2‖), ← hi] at hm2 hm3
    refine ⟨m, by rw [hm1, ok_bind]; rfl, fun a b hab => ?_, ?_⟩
    · refine hm3 _ (List.mem_map.2 ⟨_, (hl _).2 hab, ?_⟩)
      simp only [node_at]
    · obtain ⟨nd, hnd, rfl⟩ := List.mem_map.1 hm2
      have hM := (hl nd).1 hnd
      obtain ⟨i1, i2, i3, i4⟩ := hin nd hM
      have e1 : (((nd.1 - 1).toNat : ℕ) : ℤ) + 1 = nd.1 := by omega
      have e2 : (((nd.2 - 1).toNat : ℕ) : ℤ) + 1 = nd.2 := by omega
      refine ⟨⟨(nd.1 - 1).toNat, by omega⟩, ⟨(nd.2 - 1).toNat, by omega⟩, ?_, ?_⟩
      · simp only [e1, e2]; exact hM
      · have := node_at u ⟨(nd.1 - 1).toNat, by omega⟩ ⟨(nd.2 - 1).toNat, by omega⟩
        simp only [e1, e2] at this ⊢
        rw [this]

theorem zip_getD_sum (A : List (List ℂ)) (c : List ℂ) (l : ℕ) (h : A.length = c.length) :
    ((A.zip c).map fun p => p.1.getD l 0 * p.2).sum =
      ∑ j ∈ range A.length, (A.getD j []).getD l 0 * c.getD j 0 := by
  induction A generalizing c with
  | nil => simp
  | cons a A ih =>
    rcases c with _ | ⟨x, c⟩
    · simp at h
    · rw [List.length_cons, sum_range_succ', List.zip_cons_cons, List.map_cons, List.sum_cons,
        ih c (by simpa using h), add_comm]
      rfl

theorem matVec_getD {m : ℕ} {A : List (List ℂ)} {c q : List ℂ} (h : matVec m A c = .ok q) {l : ℕ} (hl : l < m) :
    q.getD l 0 = ∑ j ∈ range A.length, (A.getD j []).getD l 0 * c.getD j 0 := by
  unfold matVec at h
  split at h
  · next hlen =>
    rw [pure_eq_ok] at h
    rw [← Except.ok.inj h, ← zip_getD_sum A c l hlen]
    simp [List.getD_eq_getElem?_getD, hl]
  · cases h

/-- squared defect of the final extension for the coefficients `c1` -/
noncomputable def defect (n : ℕ) (iter : Iter) (s : PSolver) (ap : Arr n) (c0 c1 : List ℂ) : Py ℝ := do
  let ext ← extendBoundary s (.full c0 c1)
  let u ← regularPart iter s.e s.order s.k s.G ext ap
  let tr ← getTrace s.G.unionGamma u
  return ∑ l ∈ range s.G.unionGamma.length, ‖tr.getD l 0 - ext.getD l 0‖ ^ 2

/-- **C23** (and C19, C40, C65 for the whole program): `run` succeeds; its result solves the discrete equation at
every interior node, whatever the least-squares solver returned; and the Neumann coefficients minimise the defect
of the final extension under the inhomogeneous projection. -/
theorem C23_run {iter : Iter} {s : PSolver} {n : ℕ} (S : Setup iter s.e n s.order s.k s.G) (R : Ready s)
    {p q : ℕ} (hp : 1 ≤ p) (hq : 1 ≤ q) (hbas : s.bas = setupBasis p q) {extF : List ℂ}
    (hF : extendInhomoF s = .ok extF) {f : Arr (n + 2)} (hf : setupF iter s = .ok f) {fit : Chebfit}
    (hfit : IsChebfit fit) {lstsq : Lstsq} (hlsq : IsLstsq lstsq) (roots : List ℝ) (bc : ℝ → Fin 3 → ℂ)
    (hM : s.G.Mplus ≠ ∅) (ex : Option (ℝ → ℝ → ℂ)) :
    ∃ ap, ∃ res : RunResult n, initApSolF n iter s = .ok ap ∧ psRun iter s ap fit roots bc lstsq ex = .ok res ∧
      calcC0 s.eps s.e.a s.e.R fit roots s.bas bc = .ok res.c0 ∧
      extendBoundary s (.full res.c0 res.c1) = .ok res.ext ∧
      (∀ a b : Fin n, ((a : ℤ) + 1, (b : ℤ) + 1) ∈ s.G.Mplus →
        applyL (pad res.uAct) s.order s.e.AD s.k a b = applyB f a b) ∧
      evalError iter s.e s.G ex res.uAct = .ok res.error ∧
      ∃ d, defect n iter s ap res.c0 res.c1 = .ok d ∧ ∀ c1 : List ℂ, c1.length = p + 2 * q →
        ∃ d', defect n iter s ap res.c0 c1 = .ok d' ∧ d ≤ d' := by
  have hlen : s.bas.bDesc.length = p + 2 * q := by rw [hbas, C40_length]
  have hB : s.bas.bDesc ≠ [] := by
    intro h
    rw [h] at hlen
    simp at hlen
    omega
  obtain ⟨c0, hc0, hl0⟩ := C40_c0_length (eps := s.eps) (a := s.e.a) (R := s.e.R) hfit p q hp hq roots bc
  rw [← hbas] at hc0 hl0
  obtain ⟨ap, u0, hap, -⟩ := C19_discrete_equation S f (s.G.unionGamma.map fun _ => 0) (by simp)
  -- the system
  have hres := fun (c1 : List ℂ) (h1 : c1.length = s.bas.bDesc.length) => C23_residual S R hB hF ap hl0 h1
  obtain ⟨Q1, rhs, -, -, -, -, hv, -, -, -, -, -, hrl, -, -, ⟨hQl, hQc⟩, -⟩ :=
    hres (List.replicate s.bas.bDesc.length 0) (by simp)
  have hdef : ∀ c1 : List ℂ, c1.length = s.bas.bDesc.length →
      ∃ ext, ∃ u : Arr n, extendBoundary s (.full c0 c1) = .ok ext ∧ ext.length = s.G.unionGamma.length ∧
        regularPart iter s.e s.order s.k s.G ext ap = .ok u ∧
        defect n iter s ap c0 c1 = .ok (sysResidual rhs.length Q1 rhs c1) := by
    intro c1 h1
    obtain ⟨Q1', rhs', q', ext, tr, u, e1, e2, e3, e4, e5, l1, l2, l3, l4, -, hl⟩ := hres c1 h1
    rw [hv] at e1
    cases e1
    refine ⟨ext, u, e3, l3, e4, ?_⟩
    unfold defect
    rw [e3, ok_bind, e4, ok_bind, e5, ok_bind, pure_eq_ok]
    congr 1
    unfold sysResidual
    rw [hrl]
    refine sum_congr rfl fun l hl' => ?_
    rw [← hl l (mem_range.1 hl'), matVec_getD e2 (mem_range.1 hl')]
  obtain ⟨hc1l, hmin⟩ := hlsq Q1 rhs (fun col hcol => by rw [hQc col hcol, hrl])
  rw [hQl] at hc1l hmin
  obtain ⟨ext, u, e3, l3, e4, hd⟩ := hdef _ hc1l
  obtain ⟨ap', u', hap', hu', heq⟩ := C19_discrete_equation S f ext l3.ge
  obtain rfl : ap = ap' := Except.ok.inj (hap.symm.trans hap')
  obtain rfl : u = u' := Except.ok.inj (e4.symm.trans hu')
  have herr : ∃ er, evalError iter s.e s.G ex u = .ok er := by
    obtain ⟨h1, h2⟩ := C65_eval_error S.hit S.hN S.built u
    rcases ex with _ | ex
    · exact ⟨_, h1⟩
    · obtain ⟨m, hm, -⟩ := (h2 ex).2 hM
      exact ⟨_, hm⟩
  obtain ⟨er, her⟩ := herr
  refine ⟨ap, ⟨er, u, c0, lstsq Q1 rhs, ext⟩, ?_, ?_, hc0, e3, heq, her, _, hd, fun c1 h1 => ?_⟩
  · unfold initApSolF
    rw [hf, ok_bind, hap]
  · unfold psRun solveVar
    rw [hc0, ok_bind, hv, ok_bind, pure_eq_ok, ok_bind, e3, ok_bind, e4, ok_bind, her, ok_bind, pure_eq_ok]
  · obtain ⟨-, -, -, -, -, hd'⟩ := hdef c1 (h1.trans hlen.symm)
    exact ⟨_, hd', hmin c1 (h1.trans hlen.symm)⟩

end Pot
