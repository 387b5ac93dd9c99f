import Verif.Model.PolarFD
import Verif.Spec.Polar
import Mathlib.Data.List.Nodup
import Mathlib.Data.Finset.Prod
import Mathlib.Tactic.Linarith
import Mathlib.Tactic.FieldSimp
import Mathlib.Tactic.Ring
import Mathlib.Tactic.LinearCombination

/-! # The linear system built by `PolarFD.solve` -/

namespace Pot
open Spec

/-- an equation: its coefficients with their columns, and its right-hand side -/
abbrev PfEq := List (ℝ × ℤ) × ℂ

/-- the lists built so far are the equations `eqs` in order -/
structure PfRep (s : PfSys) (eqs : List PfEq) : Prop where
  rhs : s.rhs = eqs.map (·.2)
  row : s.row = eqs.length
  entries : s.entries = eqs.zipIdx.flatMap fun e => e.1.1.map fun c => (c.1, e.2, c.2)

theorem PfRep.snoc {s : PfSys} {eqs : List PfEq} (h : PfRep s eqs) (row : List (ℝ × ℤ)) (v : ℂ) :
    PfRep ⟨s.rhs ++ [v], s.row + 1, s.entries ++ row.map fun c => (c.1, s.row, c.2)⟩ (eqs ++ [(row, v)]) := by
  refine ⟨?_, ?_, ?_⟩
  · simp [h.rhs]
  · simp [h.row]
  · rw [List.zipIdx_append, List.flatMap_append, h.entries, h.row]
    simp

theorem PfRep.dirichlet {s : PfSys} {eqs : List PfEq} (h : PfRep s eqs) (i : ℤ) (v : ℂ) :
    PfRep (pfDirichlet s i v) (eqs ++ [([(1, i)], v)]) := h.snoc [(1, i)] v

theorem PfRep.foldl {α : Type} {step : PfSys → α → PfSys} {g : α → List PfEq}
    (hs : ∀ s eqs x, PfRep s eqs → PfRep (step s x) (eqs ++ g x)) (l : List α) :
    ∀ {s eqs}, PfRep s eqs → PfRep (l.foldl step s) (eqs ++ l.flatMap g) := by
  induction l with
  | nil => intro s eqs h; simpa using h
  | cons x t ih =>
    intro s eqs h
    simpa using ih (hs s eqs x h)

theorem PfRep.foldlM {α : Type} {step : PfSys → α → Py PfSys} {g : α → List PfEq} (l : List α)
    (hs : ∀ s eqs, ∀ x ∈ l, PfRep s eqs → ∃ s', step s x = .ok s' ∧ PfRep s' (eqs ++ g x)) :
    ∀ {s eqs}, PfRep s eqs → ∃ s', l.foldlM step s = .ok s' ∧ PfRep s' (eqs ++ l.flatMap g) := by
  induction l with
  | nil => intro s eqs h; exact ⟨s, rfl, by simpa using h⟩
  | cons x t ih =>
    intro s eqs h
    obtain ⟨s1, e1, h1⟩ := hs s eqs x (by simp) h
    obtain ⟨s2, e2, h2⟩ := ih (fun s eqs y hy => hs s eqs y (by simp [hy])) h1
    refine ⟨s2, ?_, by simpa using h2⟩
    rw [List.foldlM_cons, e1, ok_bind, e2]

/-- the nodes in the order in which `solve` writes their equations -/
def pfOrder (N : ℕ) : List (ℕ × ℕ) :=
  (List.range' 1 (N - 1)).map (fun l => (0, l)) ++
  (List.range (N + 1)).flatMap (fun m => [(m, 0), (m, N)]) ++
  (List.range' 1 (N - 1)).map (fun l => (N, l)) ++
  (List.range' 1 (N - 1)).flatMap fun m => (List.range' 1 (N - 1)).map fun l => (m, l)

theorem mem_pfOrder {N : ℕ} (hN : 1 ≤ N) (m l : ℕ) : (m, l) ∈ pfOrder N ↔ m ≤ N ∧ l ≤ N := by
  simp only [pfOrder, List.mem_append, List.mem_map, List.mem_flatMap, List.mem_range'_1, List.mem_range,
    Prod.mk.injEq, List.mem_cons, List.not_mem_nil, or_false]
  constructor
  · rintro (((⟨x, hx, h1, h2⟩ | ⟨x, hx, (⟨h1, h2⟩ | ⟨h1, h2⟩)⟩) | ⟨x, hx, h1, h2⟩) | ⟨x, hx, y, hy, h1, h2⟩) <;> omega
  · rintro ⟨h1, h2⟩
    by_cases l0 : l = 0
    · exact .inl (.inl (.inr ⟨m, by omega, .inl ⟨rfl, l0⟩⟩))
    by_cases lN : l = N
    · exact .inl (.inl (.inr ⟨m, by omega, .inr ⟨rfl, lN⟩⟩))
    by_cases m0 : m = 0
    · exact .inl (.inl (.inl ⟨l, by omega, m0.symm, rfl⟩))
    by_cases mN : m = N
    · exact .inl (.inr ⟨l, by omega, mN.symm, rfl⟩)
    exact .inr ⟨m, by omega, l, by omega, rfl, rfl⟩

theorem pfOrder_nodup {N : ℕ} (hN : 1 ≤ N) : (pfOrder N).Nodup := by
  have hr : (List.range' 1 (N - 1)).Nodup := List.nodup_range'
  unfold pfOrder
  refine List.nodup_append.2 ⟨List.nodup_append.2 ⟨List.nodup_append.2 ⟨?_, ?_, ?_⟩, ?_, ?_⟩, ?_, ?_⟩
  · exact hr.map fun x y h => (Prod.mk.inj h).2
  · refine List.nodup_flatMap.2 ⟨fun m _ => ?_, ?_⟩
    · simp; omega
    · refine (List.nodup_range (n := N + 1)).imp fun {x y} hxy => ?_
      intro z hz1 hz2
      simp at hz1 hz2
      rcases hz1 with rfl | rfl <;> simp at hz2 <;> omega
  · rintro ⟨x, y⟩ h1 ⟨x', y'⟩ h2 h
    simp only [List.mem_map, List.mem_flatMap, List.mem_range'_1, List.mem_range,
      Prod.mk.injEq, List.mem_cons, List.not_mem_nil, or_false] at h1 h2 h
    rcases h1 with ⟨z, hz, h3, h4⟩
    rcases h2 with ⟨w, hw, (⟨h5, h6⟩ | ⟨h5, h6⟩)⟩ <;> omega
  · exact hr.map fun x y h => (Prod.mk.inj h).2
  · rintro ⟨x, y⟩ h1 ⟨x', y'⟩ h2 h
    simp only [List.mem_append, List.mem_map, List.mem_flatMap, List.mem_range'_1, List.mem_range,
      Prod.mk.injEq, List.mem_cons, List.not_mem_nil, or_false] at h1 h2 h
    rcases h2 with ⟨w, hw, h3, h4⟩
    rcases h1 with ⟨z, hz, h5, h6⟩ | ⟨z, hz, (⟨h5, h6⟩ | ⟨h5, h6⟩)⟩ <;> omega
  · refine List.nodup_flatMap.2 ⟨fun m _ => hr.map fun x y h => (Prod.mk.inj h).2, ?_⟩
    refine hr.imp fun {x y} hxy => ?_
    intro z hz1 hz2
    simp only [List.mem_map] at hz1 hz2
    obtain ⟨_, _, rfl⟩ := hz1
    obtain ⟨_, _, h⟩ := hz2
    exact hxy (Prod.mk.inj h).1.symm
  · rintro ⟨x, y⟩ h1 ⟨x', y'⟩ h2 h
    simp only [List.mem_append, List.mem_map, List.mem_flatMap, List.mem_range'_1, List.mem_range,
      Prod.mk.injEq, List.mem_cons, List.not_mem_nil, or_false] at h1 h2 h
    rcases h2 with ⟨w, hw, w', hw', h3, h4⟩
    rcases h1 with (⟨z, hz, h5, h6⟩ | ⟨z, hz, (⟨h5, h6⟩ | ⟨h5, h6⟩)⟩) | ⟨z, hz, h5, h6⟩ <;> omega

theorem pfOrder_length {N : ℕ} (hN : 1 ≤ N) : (pfOrder N).length = (N + 1) ^ 2 := by
  have h : (pfOrder N).toFinset = Finset.range (N + 1) ×ˢ Finset.range (N + 1) := by
    ext ⟨m, l⟩
    rw [List.mem_toFinset, mem_pfOrder hN]
    simp
  rw [← List.toFinset_card_of_nodup (pfOrder_nodup hN), h]
  simp [pow_two]

/-- the nine coefficients of the scheme at an inner node with their columns -/
noncomputable def fd4Row (p : PolarFD) (k : ℝ) (m l : ℤ) : List (ℝ × ℤ) :=
  pfStencil.map fun x => (fd4Coef p k m x.1 x.2, p.getIndex (m + x.1) (l + x.2))

/-- the equation of node `(m, l)` -/
noncomputable def pfEqAt (p : PolarFD) (d : PfData) (nd : ℕ × ℕ) : PfEq :=
  if nd.1 = 0 ∨ nd.1 = p.N ∨ nd.2 = 0 ∨ nd.2 = p.N then
    ([(1, p.getIndex nd.1 nd.2)],
      polarBc p.N (fun m => p.getR m) (fun l => p.getTh l) d.phiInit d.phi0 d.phi1 d.phi2 nd.1 nd.2)
  else (fd4Row p d.k nd.1 nd.2, fd4Rhs p d nd.1 nd.2)

theorem pfCopyLocal_eq (p : PolarFD) (k : ℝ) (m l : ℤ) (s : PfSys) :
    pfCopyLocal p k m l s = ⟨s.rhs, s.row, s.entries ++ (fd4Row p k m l).map fun c => (c.1, s.row, c.2)⟩ := by
  simp [pfCopyLocal, fd4Row, pfStencil]

theorem PfRep.fd4 {p : PolarFD} {d : PfData} {m l : ℤ} {s : PfSys} {eqs : List PfEq} (h : PfRep s eqs)
    (h1 : p.hr ≠ 0) (h2 : p.hth ≠ 0) (h3 : p.getR m ≠ 0) (h4 : p.getR (m - 1) ≠ 0) (h5 : p.getR (m + 1) ≠ 0) :
    ∃ s', pfSetFd4 p d m l s = .ok s' ∧ PfRep s' (eqs ++ [(fd4Row p d.k m l, fd4Rhs p d m l)]) := by
  refine ⟨_, ?_, h.snoc (fd4Row p d.k m l) (fd4Rhs p d m l)⟩
  unfold pfSetFd4
  rw [if_neg (by simp [h1, h2, h3, h4, h5])]
  dsimp only
  rw [pfCopyLocal_eq]
  rfl

theorem map_eq_flatMap {α β : Type} (f : α → β) (l : List α) : l.map f = l.flatMap fun x => [f x] := by
  induction l with
  | nil => rfl
  | cons x t ih => simp [ih]

/-- the system consists of the equations of the nodes in the order `pfOrder` -/
theorem pfSystem_rep (p : PolarFD) (d : PfData) (hN : 1 ≤ p.N) (h1 : p.hr ≠ 0) (h2 : p.hth ≠ 0)
    (h3 : ∀ m : ℕ, m ≤ p.N → p.getR m ≠ 0) :
    ∃ s, pfSystem p d = .ok s ∧ PfRep s ((pfOrder p.N).map (pfEqAt p d)) := by
  have h0 : PfRep pfNew [] := ⟨rfl, rfl, rfl⟩
  have b1 : PfRep (pfBcOrigin p d pfNew) (((List.range' 1 (p.N - 1)).map (fun l => (0, l))).map (pfEqAt p d)) := by
    have := PfRep.foldl (step := fun s (l : ℕ) => pfDirichlet s (p.getIndex 0 l) (d.phiInit (p.getTh l)))
      (g := fun l : ℕ => [([(1, p.getIndex 0 l)], d.phiInit (p.getTh l))]) (fun s eqs x h => h.dirichlet _ _)
      (List.range' 1 (p.N - 1)) h0
    rw [List.nil_append, ← map_eq_flatMap] at this
    unfold pfBcOrigin
    convert this using 1
    rw [List.map_map]
    refine List.map_congr_left fun l hl => ?_
    rw [List.mem_range'_1] at hl
    simp only [Function.comp_apply, pfEqAt, polarBc]
    rw [if_pos (.inl trivial), if_neg (by omega), if_neg (by omega), if_pos trivial]
    simp
  have b2 : PfRep (pfBcWedge p d (pfBcOrigin p d pfNew))
      (((List.range' 1 (p.N - 1)).map (fun l => (0, l)) ++
        (List.range (p.N + 1)).flatMap (fun m => [(m, 0), (m, p.N)])).map (pfEqAt p d)) := by
    have := PfRep.foldl (step := fun s (m : ℕ) =>
        pfDirichlet (pfDirichlet s (p.getIndex m 0) (d.phi2 (p.getR m))) (p.getIndex m p.N) (d.phi1 (p.getR m)))
      (g := fun m : ℕ => [([(1, p.getIndex m 0)], d.phi2 (p.getR m)), ([(1, p.getIndex m p.N)], d.phi1 (p.getR m))])
      (fun s eqs x h => by simpa using (h.dirichlet _ _).dirichlet _ _)
      (List.range (p.N + 1)) b1
    unfold pfBcWedge
    dsimp only
    convert this using 1
    rw [List.map_append]
    congr 1
    rw [List.map_flatMap]
    congr 1
    funext m
    simp only [List.map_cons, List.map_nil, pfEqAt, polarBc]
    have hN0 : p.N ≠ 0 := by omega
    simp [hN0]
  have b3 : PfRep (pfBcArc p d (pfBcWedge p d (pfBcOrigin p d pfNew)))
      (((List.range' 1 (p.N - 1)).map (fun l => (0, l)) ++
        (List.range (p.N + 1)).flatMap (fun m => [(m, 0), (m, p.N)]) ++
        (List.range' 1 (p.N - 1)).map (fun l => (p.N, l))).map (pfEqAt p d)) := by
    have := PfRep.foldl (step := fun s (l : ℕ) => pfDirichlet s (p.getIndex p.N l) (d.phi0 (p.getTh l)))
      (g := fun l : ℕ => [([(1, p.getIndex p.N l)], d.phi0 (p.getTh l))]) (fun s eqs x h => h.dirichlet _ _)
      (List.range' 1 (p.N - 1)) b2
    rw [← map_eq_flatMap] at this
    unfold pfBcArc
    convert this using 1
    rw [List.map_append]
    congr 1
    rw [List.map_map]
    refine List.map_congr_left fun l hl => ?_
    rw [List.mem_range'_1] at hl
    simp only [Function.comp_apply, pfEqAt, polarBc]
    rw [if_pos (by simp), if_neg (by omega), if_neg (by omega), if_neg (by omega)]
  have b4 := PfRep.foldlM (List.range' 1 (p.N - 1)) (step := fun s (m : ℕ) =>
      (List.range' 1 (p.N - 1)).foldlM (init := s) fun s (l : ℕ) => pfSetFd4 p d m l s)
    (g := fun m : ℕ => (List.range' 1 (p.N - 1)).flatMap fun l : ℕ => [(fd4Row p d.k m l, fd4Rhs p d m l)])
    (fun s eqs m hm h => PfRep.foldlM (List.range' 1 (p.N - 1))
      (step := fun s (l : ℕ) => pfSetFd4 p d m l s)
      (g := fun l : ℕ => [(fd4Row p d.k m l, fd4Rhs p d m l)])
      (fun s eqs l hl h => by
        rw [List.mem_range'_1] at hm hl
        refine h.fd4 h1 h2 (by simpa using h3 m (by omega)) ?_ ?_
        · have := h3 (m - 1) (by omega)
          rw [Nat.cast_sub (by omega)] at this
          push_cast at this ⊢
          exact this
        · have := h3 (m + 1) (by omega)
          push_cast at this ⊢
          exact this) h) b3
  obtain ⟨s, hs, hr⟩ := b4
  refine ⟨s, hs, ?_⟩
  convert hr using 1
  unfold pfOrder
  rw [List.map_append]
  congr 1
  rw [List.map_flatMap]
  refine List.flatMap_congr fun m hm => ?_
  rw [List.map_map, map_eq_flatMap]
  refine List.flatMap_congr fun l hl => ?_
  rw [List.mem_range'_1] at hm hl
  simp only [Function.comp_apply, pfEqAt]
  rw [if_neg (by omega)]

/-- the entries written in row `i` -/
def pfRowOf (s : PfSys) (i : ℕ) : List (ℝ × ℤ) :=
  (s.entries.filter fun e => e.2.1 = i).map fun e => (e.1, e.2.2)

theorem filter_row (eqs : List PfEq) (i : ℕ) :
    ((eqs.zipIdx.flatMap fun e => e.1.1.map fun c => (c.1, e.2, c.2)).filter fun e : ℝ × ℕ × ℤ => e.2.1 = i).map
      (fun e => (e.1, e.2.2)) = match eqs[i]? with
        | some e => e.1
        | none => [] := by
  induction eqs using List.reverseRecOn with
  | nil => simp
  | append_singleton t e ih =>
    rw [List.zipIdx_append, List.flatMap_append, List.filter_append, List.map_append, ih]
    by_cases h : i < t.length
    · rw [List.getElem?_append_left h, List.getElem?_eq_getElem h]
      have : t.length ≠ i := by omega
      simp [List.filter_map, Function.comp_def, this]
    · rw [List.getElem?_eq_none (by omega : t.length ≤ i)]
      by_cases h' : i = t.length
      · subst h'
        simp [List.filter_map, Function.comp_def]
      · rw [List.getElem?_eq_none (by simp; omega)]
        have : t.length ≠ i := by omega
        simp [List.filter_map, Function.comp_def, this]

theorem PfRep.rowOf {s : PfSys} {eqs : List PfEq} (h : PfRep s eqs) {i : ℕ} (hi : i < eqs.length) :
    pfRowOf s i = eqs[i].1 := by
  unfold pfRowOf
  rw [h.entries, filter_row, List.getElem?_eq_getElem hi]

theorem PfRep.row_lt {s : PfSys} {eqs : List PfEq} (h : PfRep s eqs) : ∀ e ∈ s.entries, e.2.1 < eqs.length := by
  intro e he
  rw [h.entries] at he
  simp only [List.mem_flatMap, List.mem_map] at he
  obtain ⟨⟨x, i⟩, hx, c, hc, rfl⟩ := he
  have := List.mem_zipIdx hx
  simp at this ⊢
  omega

end Pot
