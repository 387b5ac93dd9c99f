import Verif.Model.Trend
import Verif.Props.Study
import Verif.Proofs.MapM
import Mathlib.Data.List.Sort
import Mathlib.Data.List.GetD

/-!
# C104: the files of `generate_data2.py` and the reports that need several of its runs
-/

namespace Pot
open Real Classical

/-! ## Names -/

theorem trendName_toList (p b k : String) :
    (trendName p b k).toList = ("m1trend_" ++ p ++ "_" ++ b ++ "_").toList ++ (k.toList ++ ".dat".toList) := by
  simp [trendName, String.toList_append, List.append_assoc]

/-- no beginning of a name is the beginning of another -/
theorem trend_prefix : ∀ p ∈ trendProblems, ∀ p' ∈ trendProblems, ∀ b ∈ trendBoundaries, ∀ b' ∈ trendBoundaries,
    ("m1trend_" ++ p ++ "_" ++ b ++ "_").toList <+: ("m1trend_" ++ p' ++ "_" ++ b' ++ "_").toList → p = p' ∧ b = b' := by
  decide +kernel

/-- **C104.** Different problems, boundaries or values of `k` have different files. -/
theorem C104_names {p p' b b' k k' : String} (hp : p ∈ trendProblems) (hp' : p' ∈ trendProblems) (hb : b ∈ trendBoundaries)
    (hb' : b' ∈ trendBoundaries) (h : trendName p b k = trendName p' b' k') : p = p' ∧ b = b' ∧ k = k' := by
  have h' := congrArg String.toList h
  rw [trendName_toList, trendName_toList] at h'
  have hpb : p = p' ∧ b = b' := by
    have h1 : ("m1trend_" ++ p ++ "_" ++ b ++ "_").toList <+:
        ("m1trend_" ++ p' ++ "_" ++ b' ++ "_").toList ++ (k'.toList ++ ".dat".toList) := ⟨_, h'⟩
    have h2 : ("m1trend_" ++ p' ++ "_" ++ b' ++ "_").toList <+:
        ("m1trend_" ++ p' ++ "_" ++ b' ++ "_").toList ++ (k'.toList ++ ".dat".toList) := ⟨_, rfl⟩
    rcases List.prefix_or_prefix_of_prefix h1 h2 with h3 | h3
    · exact trend_prefix p hp p' hp' b hb b' hb' h3
    · obtain ⟨h4, h5⟩ := trend_prefix p' hp' p hp b' hb' b hb h3
      exact ⟨h4.symm, h5.symm⟩
  obtain ⟨rfl, rfl⟩ := hpb
  exact ⟨rfl, rfl, String.toList_injective (List.append_cancel_right (List.append_cancel_left h'))⟩

/-! ## Writing the files -/

/-- what a file contains: one line of seven errors and the singular values for each number of basis functions -/
noncomputable def trendOf (c : ℕ → List ℂ) (s : ℕ → List ℝ) (f : List ℂ) : Trend :=
  ⟨trendM1, trendM1.map fun m => absDiffs (c m) f, trendM1.map s⟩

theorem trendLoop_eq {calcA : ℕ → Py (List ℂ × List ℝ)} {c : ℕ → List ℂ} {s : ℕ → List ℝ} {f : List ℂ}
    (h : ∀ m ∈ trendM1, calcA m = .ok (c m, s m)) (hl : ∀ m ∈ trendM1, (c m).length = f.length) :
    trendLoop calcA f = .ok (trendOf c s f) := by
  have key : ∀ (l : List ℕ) (t : Trend), (∀ m ∈ l, m ∈ trendM1) →
      (l.foldlM (init := t) fun t m1 => do
        let (aCoef, singularVals) ← calcA m1
        let error ← arrSub aCoef f
        return (⟨t.m1Data ++ [m1], t.error ++ [arrAbs error], t.singularVals ++ [singularVals]⟩ : Trend)) =
      .ok ⟨t.m1Data ++ l, t.error ++ l.map (fun m => absDiffs (c m) f), t.singularVals ++ l.map s⟩ := by
    intro l
    induction l with
    | nil => intro t _; simp
    | cons m l ih =>
      intro t hm
      have hsub : arrSub (c m) f = .ok (List.zipWith (· - ·) (c m) f) := if_pos (hl m (hm m (by simp)))
      have habs : arrAbs (List.zipWith (· - ·) (c m) f) = absDiffs (c m) f := by
        simp [arrAbs, absDiffs, List.map_zipWith]
      rw [List.foldlM_cons, h m (hm m (by simp))]
      simp only [ok_bind, hsub, pure_eq_ok, habs]
      exact (ih _ fun x hx => hm x (by simp [hx])).trans (by simp)
  have := key trendM1 ⟨[], [], []⟩ fun _ h => h
  simpa [trendLoop, trendOf] using this

/-- a file to be written: the value of `k` of the run, the problem and the boundary -/
abbrev TKey := ℝ × String × String

/-- the problems and boundaries of a run -/
def IsKey (x : TKey) : Prop := x.2.1 ∈ trendProblems ∧ x.2.2 ∈ trendBoundaries

/-- the name of the file of a key -/
def keyName (str : ℝ → String) (x : TKey) : String := trendName x.2.1 x.2.2 (str x.1)

/-- the files of `X` have been written with the contents `T`, the others are as before -/
def Wrote (str : ℝ → String) (T : TKey → Trend) (F F' : Files) (X : Set TKey) : Prop :=
  (∀ x ∈ X, F' (keyName str x) = some (T x)) ∧ ∀ n, (∀ x ∈ X, n ≠ keyName str x) → F' n = F n

theorem Wrote.trans {str : ℝ → String} {T : TKey → Trend} {F F1 F2 : Files} {X Y : Set TKey} (h1 : Wrote str T F F1 X)
    (h2 : Wrote str T F1 F2 Y) (hc : ∀ x ∈ X, ∀ y ∈ Y, keyName str x = keyName str y → T x = T y) :
    Wrote str T F F2 (X ∪ Y) := by
  refine ⟨?_, ?_⟩
  · rintro x (hx | hx)
    · by_cases h : ∃ y ∈ Y, keyName str x = keyName str y
      · obtain ⟨y, hy, hxy⟩ := h
        rw [hxy, h2.1 y hy, hc x hx y hy hxy]
      · rw [h2.2 _ fun y hy e => h ⟨y, hy, e⟩, h1.1 x hx]
    · exact h2.1 x hx
  · intro n hn
    rw [h2.2 n fun y hy => hn y (Or.inr hy), h1.2 n fun y hy => hn y (Or.inl hy)]

theorem foldlM_wrote {α : Type} {str : ℝ → String} {T : TKey → Trend} {step : Files → α → Py Files} {X : α → Set TKey}
    (hc : ∀ a, ∀ x ∈ X a, ∀ b, ∀ y ∈ X b, keyName str x = keyName str y → T x = T y) :
    ∀ (l : List α), (∀ a ∈ l, ∀ F, ∃ F', step F a = .ok F' ∧ Wrote str T F F' (X a)) → ∀ F,
      ∃ F', l.foldlM step F = .ok F' ∧ Wrote str T F F' {x | ∃ a ∈ l, x ∈ X a}
  | [], _, F => ⟨F, rfl, by rintro x ⟨a, ha, -⟩; simp at ha, fun _ _ => rfl⟩
  | a :: l, h, F => by
    obtain ⟨F1, h1, w1⟩ := h a (by simp) F
    obtain ⟨F2, h2, w2⟩ := foldlM_wrote hc l (fun b hb => h b (by simp [hb])) F1
    refine ⟨F2, ?_, ?_⟩
    · rw [List.foldlM_cons, h1, ok_bind, h2]
    · have := w1.trans w2 fun x hx y ⟨b, _, hy⟩ e => hc a x hx b y hy e
      convert this using 1
      ext x
      simp only [Set.mem_ofPred_eq, Set.mem_union, List.mem_cons, exists_eq_or_imp]

/-- the assumptions on the computations of the runs with the values `ks` of `k`: each succeeds for every problem, boundary and number of
basis functions, with seven coefficients and at least one singular value -/
structure TrendOk (jv : ℝ → ℝ → ℝ) (lstsq : Lstsq) (sv : List (List ℂ) → List ℝ) (ks : List ℝ) (get : ℝ → String → StudyProblem)
    (c : TKey → ℕ → List ℂ) (s : TKey → ℕ → List ℝ) : Prop where
  k : ∀ k ∈ ks, ∀ p ∈ trendProblems, (get k p).k = k
  fft : ∀ k ∈ ks, ∀ p ∈ trendProblems, 7 ≤ (get k p).fftA.length
  run : ∀ k ∈ ks, ∀ p ∈ trendProblems, ∀ b ∈ trendBoundaries, ∀ r, trendBoundary (get k p) b = .ok r → ∀ m ∈ trendM1,
    abCalcFull jv lstsq sv (get k p) r m = .ok (c (k, p, b) m, s (k, p, b) m)
  seven : ∀ k ∈ ks, ∀ p ∈ trendProblems, ∀ b ∈ trendBoundaries, ∀ m ∈ trendM1, (c (k, p, b) m).length = 7
  sing : ∀ k ∈ ks, ∀ p ∈ trendProblems, ∀ b ∈ trendBoundaries, ∀ m ∈ trendM1, s (k, p, b) m ≠ []

/-- the contents of the file of a key -/
noncomputable def keyTrend (get : ℝ → String → StudyProblem) (c : TKey → ℕ → List ℂ) (s : TKey → ℕ → List ℝ) (x : TKey) : Trend :=
  trendOf (c x) (s x) ((get x.1 x.2.1).fftA.take 7)

theorem trendBoundary_ok (p : StudyProblem) : ∀ b ∈ trendBoundaries, ∃ r, trendBoundary p b = .ok r := by
  intro b hb
  simp only [trendBoundaries, List.mem_cons, List.not_mem_nil, or_false] at hb
  rcases hb with rfl | rfl | rfl | rfl <;> exact ⟨_, rfl⟩

theorem keyName_inj {str : ℝ → String} {ks : List ℝ} (hs : ∀ k ∈ ks, ∀ k' ∈ ks, str k = str k' → k = k') {x y : TKey}
    (hx : x.1 ∈ ks) (hy : y.1 ∈ ks) (kx : IsKey x) (ky : IsKey y) (h : keyName str x = keyName str y) : x = y := by
  obtain ⟨h1, h2, h3⟩ := C104_names kx.1 ky.1 kx.2 ky.2 h
  exact Prod.ext (hs _ hx _ hy h3) (Prod.ext h1 h2)

/-- **C104.** Any number of runs, with the values `ks` of `k`: all succeed, and afterwards each of the twelve files of each run is there
with its contents; no other file has changed. -/
theorem C104_runs {jv : ℝ → ℝ → ℝ} {lstsq : Lstsq} {sv : List (List ℂ) → List ℝ} {str : ℝ → String} {ks : List ℝ}
    (hs : ∀ k ∈ ks, ∀ k' ∈ ks, str k = str k' → k = k') {get : ℝ → String → StudyProblem} {c : TKey → ℕ → List ℂ}
    {s : TKey → ℕ → List ℝ} (h : TrendOk jv lstsq sv ks get c s) (F : Files) :
    ∃ F', ks.foldlM (fun F k => generateData2 jv lstsq sv str (get k) F) F = .ok F' ∧
      (∀ k ∈ ks, ∀ p ∈ trendProblems, ∀ b ∈ trendBoundaries, F' (trendName p b (str k)) = some (keyTrend get c s (k, p, b))) ∧
      ∀ n, (∀ k ∈ ks, ∀ p ∈ trendProblems, ∀ b ∈ trendBoundaries, n ≠ trendName p b (str k)) → F' n = F n := by
  have hgo : ∀ k ∈ ks, ∀ p ∈ trendProblems, ∀ b ∈ trendBoundaries, ∀ F, ∃ F', trendGo jv lstsq sv str (get k) F p b = .ok F' ∧
      Wrote str (keyTrend get c s) F F' {(k, p, b)} := by
    intro k hk p hp b hb F
    obtain ⟨r, hr⟩ := trendBoundary_ok (get k p) b hb
    have hf : ((get k p).fftA.take 7).length = 7 := by
      rw [List.length_take]
      exact min_eq_left (h.fft k hk p hp)
    have hloop : trendLoop (abCalcFull jv lstsq sv (get k p) r) ((get k p).fftA.take studyM) =
        .ok (keyTrend get c s (k, p, b)) :=
      trendLoop_eq (h.run k hk p hp b hb r hr) fun m hm => by
        rw [h.seven k hk p hp b hb m hm]
        exact hf.symm
    refine ⟨Function.update F (trendName p b (str k)) (some (keyTrend get c s (k, p, b))), ?_, ?_, ?_⟩
    · unfold trendGo
      simp only [hr, ok_bind, hloop, h.k k hk p hp]
      rfl
    · intro x hx
      rw [Set.mem_singleton_iff.1 hx]
      exact Function.update_self _ _ _
    · intro n hn
      exact Function.update_of_ne (hn _ rfl) _ _
  have hin : ∀ k p, ∀ x ∈ ({x | k ∈ ks ∧ p ∈ trendProblems ∧ x.1 = k ∧ x.2.1 = p ∧ x.2.2 ∈ trendBoundaries} : Set TKey),
      x.1 ∈ ks ∧ IsKey x := by
    rintro k p x ⟨h1, h2, h3, h4, h5⟩
    exact ⟨h3 ▸ h1, h4 ▸ h2, h5⟩
  have hprob : ∀ k ∈ ks, ∀ p ∈ trendProblems, ∀ F, ∃ F',
      (trendBoundaries.foldlM (init := F) fun F b => trendGo jv lstsq sv str (get k) F p b) = .ok F' ∧
      Wrote str (keyTrend get c s) F F' {x | k ∈ ks ∧ p ∈ trendProblems ∧ x.1 = k ∧ x.2.1 = p ∧ x.2.2 ∈ trendBoundaries} := by
    intro k hk p hp F
    obtain ⟨F', h1, h2⟩ := foldlM_wrote (str := str) (T := keyTrend get c s)
      (step := fun F b => trendGo jv lstsq sv str (get k) F p b) (X := fun b => {x | b ∈ trendBoundaries ∧ x = (k, p, b)})
      (by
        rintro b x ⟨hb, rfl⟩ b' y ⟨hb', rfl⟩ e
        rw [keyName_inj hs hk hk ⟨hp, hb⟩ ⟨hp, hb'⟩ e]) trendBoundaries (by
        intro b hb F
        obtain ⟨F', h1, h2⟩ := hgo k hk p hp b hb F
        refine ⟨F', h1, ?_⟩
        convert h2 using 1
        ext x
        simp [hb]) F
    refine ⟨F', h1, ?_⟩
    convert h2 using 1
    ext x
    simp only [Set.mem_ofPred_eq]
    constructor
    · rintro ⟨-, -, h3, h4, h5⟩
      exact ⟨x.2.2, h5, h5, Prod.ext h3 (Prod.ext h4 rfl)⟩
    · rintro ⟨b, -, hb, rfl⟩
      exact ⟨hk, hp, rfl, rfl, hb⟩
  have hrun : ∀ k ∈ ks, ∀ F, ∃ F', generateData2 jv lstsq sv str (get k) F = .ok F' ∧
      Wrote str (keyTrend get c s) F F' {x | k ∈ ks ∧ x.1 = k ∧ IsKey x} := by
    intro k hk F
    obtain ⟨F', h1, h2⟩ := foldlM_wrote (str := str) (T := keyTrend get c s)
      (step := fun F p => trendBoundaries.foldlM (init := F) fun F b => trendGo jv lstsq sv str (get k) F p b)
      (X := fun p => {x | k ∈ ks ∧ p ∈ trendProblems ∧ x.1 = k ∧ x.2.1 = p ∧ x.2.2 ∈ trendBoundaries})
      (by
        intro p x hx p' y hy e
        obtain ⟨i1, i2⟩ := hin k p x hx
        obtain ⟨j1, j2⟩ := hin k p' y hy
        rw [keyName_inj hs i1 j1 i2 j2 e]) trendProblems (fun p hp F => hprob k hk p hp F) F
    refine ⟨F', h1, ?_⟩
    convert h2 using 1
    ext x
    simp only [Set.mem_ofPred_eq]
    constructor
    · rintro ⟨h3, h4, h5⟩
      exact ⟨x.2.1, h5.1, h3, h5.1, h4, rfl, h5.2⟩
    · rintro ⟨p, -, h3, h4, h5, h6, h7⟩
      exact ⟨h3, h5, h6 ▸ h4, h7⟩
  obtain ⟨F', h1, h2, h3⟩ := foldlM_wrote (str := str) (T := keyTrend get c s)
    (step := fun F k => generateData2 jv lstsq sv str (get k) F) (X := fun k => {x | k ∈ ks ∧ x.1 = k ∧ IsKey x})
    (by
      rintro k x ⟨i1, i2, i3⟩ k' y ⟨j1, j2, j3⟩ e
      rw [keyName_inj hs (i2 ▸ i1) (j2 ▸ j1) i3 j3 e]) ks hrun F
  refine ⟨F', h1, ?_, ?_⟩
  · intro k hk p hp b hb
    exact h2 (k, p, b) ⟨k, hk, hk, rfl, hp, hb⟩
  · intro n hn
    refine h3 n ?_
    rintro x ⟨k, -, hk, hx, hkey⟩
    exact hn x.1 (hx ▸ hk) _ hkey.1 _ hkey.2

/-! ## Reading them -/

theorem rep_ok_bind {α β : Type} (a : α) (f : α → Except RepErr β) : ((Except.ok a : Except RepErr α) >>= f) = f a := rfl

theorem mapM_rep {α β : Type} {f : α → Except RepErr β} {g : α → β} : ∀ {l : List α}, (∀ x ∈ l, f x = .ok (g x)) →
    l.mapM f = .ok (l.map g)
  | [], _ => by simp [List.mapM_nil, pure, Except.pure]
  | x :: l, h => by
    rw [List.mapM_cons, h x (by simp), mapM_rep (fun y hy => h y (by simp [hy]))]
    rfl

theorem trendM1_length : trendM1.length = 54 := by simp [trendM1]

theorem trendM1_get {i : ℕ} (hi : i < 54) : trendM1[i]? = some (10 + 5 * i) := by
  simp [trendM1, hi]

theorem trendM1_mem {i : ℕ} (hi : i < 54) : 10 + 5 * i ∈ trendM1 :=
  List.mem_map.2 ⟨i, List.mem_range.2 hi, rfl⟩

/-- the largest of the seven errors for each number of basis functions -/
theorem exists_errors {c : ℕ → List ℂ} {f : List ℂ} (hf : f.length = 7) (hc : ∀ m ∈ trendM1, (c m).length = 7) :
    ∃ e : ℕ → ℝ, ∀ i < 54, arrMax (absDiffs (c (10 + 5 * i)) f) = .ok (e i) ∧
      Spec.IsLargest (absDiffs (c (10 + 5 * i)) f) (e i) := by
  have : ∀ i, ∃ e, i < 54 → arrMax (absDiffs (c (10 + 5 * i)) f) = .ok e ∧ Spec.IsLargest (absDiffs (c (10 + 5 * i)) f) e := by
    intro i
    by_cases hi : i < 54
    · obtain ⟨e, h1, h2⟩ := arrMax_largest (l := absDiffs (c (10 + 5 * i)) f) (by
        intro h
        have := congrArg List.length h
        simp [absDiffs, hf, hc _ (trendM1_mem hi)] at this)
      exact ⟨e, fun _ => ⟨h1, h2⟩⟩
    · exact ⟨0, fun h => absurd h hi⟩
  choose e he using this
  exact ⟨e, he⟩

theorem trendOf_length (c : ℕ → List ℂ) (s : ℕ → List ℝ) (f : List ℂ) : (trendOf c s f).error.length = 54 := by
  simp [trendOf, trendM1_length]

theorem trendOf_error (c : ℕ → List ℂ) (s : ℕ → List ℝ) (f : List ℂ) {i : ℕ} (hi : i < 54) :
    listGet (trendOf c s f).error i = .ok (absDiffs (c (10 + 5 * i)) f) := by
  simp [listGet, trendOf, trendM1_get hi]

theorem trendOf_sing (c : ℕ → List ℂ) (s : ℕ → List ℝ) (f : List ℂ) {i : ℕ} (hi : i < 54) :
    listGet (trendOf c s f).singularVals i = .ok (s (10 + 5 * i)) := by
  simp [listGet, trendOf, trendM1_get hi]

theorem lastOf_ok {l : List ℝ} (h : l ≠ []) : ∃ x, lastOf l = .ok x := by
  unfold lastOf
  rw [List.getLast?_eq_some_getLast h]
  exact ⟨_, rfl⟩

theorem trendCurve_eq {c : ℕ → List ℂ} {s : ℕ → List ℝ} {f : List ℂ} {e : ℕ → ℝ}
    (he : ∀ i < 54, arrMax (absDiffs (c (10 + 5 * i)) f) = .ok (e i)) (hs : ∀ m ∈ trendM1, s m ≠ []) :
    trendCurve (trendOf c s f) = .ok (trendM1, (List.range 54).map e) := by
  unfold trendCurve
  rw [trendOf_length, mapM_ok (g := e)]
  · rfl
  · intro i hi
    rw [List.mem_range] at hi
    obtain ⟨x, hx⟩ := lastOf_ok (hs _ (trendM1_mem hi))
    rw [trendOf_error c s f hi, ok_bind, he i hi, ok_bind, trendOf_sing c s f hi, ok_bind, hx, ok_bind]
    rfl

theorem errorRow_eq {c : ℕ → List ℂ} {s : ℕ → List ℝ} {f : List ℂ} {e : ℕ → ℝ}
    (he : ∀ i < 54, arrMax (absDiffs (c (10 + 5 * i)) f) = .ok (e i)) :
    errorRow (trendOf c s f) = .ok ((List.range 54).map e) := by
  have key : ∀ n ≤ 54, ((List.range n).foldlM (init := List.replicate 54 (0 : ℝ)) fun row i => do
      let e ← arrMax (← listGet (trendOf c s f).error i)
      if i < row.length then return row.set i e else throw .indexError) =
      (.ok ((List.range n).map e ++ List.replicate (54 - n) 0) : Py (List ℝ)) := by
    intro n
    induction n with
    | zero => intro _; rfl
    | succ n ih =>
      intro hn
      rw [List.range_succ, List.foldlM_append, ih (by omega), ok_bind, List.foldlM_cons]
      rw [trendOf_error c s f (by omega), ok_bind, he n (by omega), ok_bind, if_pos (by simp; omega)]
      have hr : List.replicate (54 - n) (0 : ℝ) = 0 :: List.replicate (54 - (n + 1)) 0 := by
        rw [← List.replicate_succ]
        congr 1
        omega
      rw [hr]
      simp only [pure_eq_ok, ok_bind, List.foldlM_nil]
      congr 1
      rw [List.set_append_right _ _ (by simp)]
      simp
  unfold errorRow
  rw [trendOf_length, key 54 le_rfl]
  simp

/-- all the files the reports 3 and 4 read are there, with these contents -/
def HasFiles (str : ℝ → String) (F : Files) (T : TKey → Trend) : Prop :=
  ∀ x ∈ reportCases, F (trendName x.1 x.2.1 (str x.2.2)) = some (T (x.2.2, x.1, x.2.1))

theorem mem_reportCases {x : String × String × ℝ} : x ∈ reportCases ↔ x.1 ∈ trendProblems ∧ x.2.1 ∈ trendBoundaries ∧ x.2.2 ∈ reportK := by
  obtain ⟨p, b, k⟩ := x
  simp only [reportCases, List.mem_flatMap, List.mem_map, Prod.mk.injEq]
  constructor
  · rintro ⟨p', hp, b', hb, k', hk, rfl, rfl, rfl⟩
    exact ⟨hp, hb, hk⟩
  · rintro ⟨hp, hb, hk⟩
    exact ⟨p, hp, b, hb, k, hk, rfl, rfl, rfl⟩

theorem reportCases_length : reportCases.length = 36 := by
  simp [reportCases, trendProblems, trendBoundaries, reportK]

/-! ## Minimum, median and maximum -/

theorem foldl_min_smallest : ∀ (l : List ℝ) (x : ℝ), l.foldl min x ∈ x :: l ∧ ∀ y ∈ x :: l, l.foldl min x ≤ y
  | [], x => by simp
  | y :: l, x => by
    obtain ⟨h1, h2⟩ := foldl_min_smallest l (min x y)
    refine ⟨?_, ?_⟩
    · show List.foldl min (min x y) l ∈ _
      rcases List.mem_cons.1 h1 with h | h
      · rcases min_choice x y with hm | hm <;> rw [hm] at h ⊢ <;> rw [h] <;> simp
      · exact List.mem_cons_of_mem _ (List.mem_cons_of_mem _ h)
    · intro z hz
      show List.foldl min (min x y) l ≤ z
      have h0 : List.foldl min (min x y) l ≤ min x y := h2 _ (by simp)
      rcases List.mem_cons.1 hz with rfl | hz
      · exact h0.trans (min_le_left _ _)
      rcases List.mem_cons.1 hz with rfl | hz
      · exact h0.trans (min_le_right _ _)
      · exact h2 z (List.mem_cons_of_mem _ hz)

/-- **C104.** `np.median` of a list that is not empty: at least half of the entries are at most the median and at least half are at
least the median. -/
theorem C104_median {l : List ℝ} (h : l ≠ []) : Spec.IsMedian l (median l) := by
  obtain ⟨s, hs⟩ : ∃ s, s = l.insertionSort (· ≤ ·) := ⟨_, rfl⟩
  have hperm : s.Perm l := hs ▸ List.perm_insertionSort _ l
  have hsort : s.Pairwise (· ≤ ·) := hs ▸ List.pairwise_insertionSort _ l
  have hlen : s.length = l.length := hperm.length_eq
  have hpos : 0 < l.length := List.length_pos_iff.2 h
  obtain ⟨c, hc⟩ : ∃ c, c = median l := ⟨_, rfl⟩
  obtain ⟨n, hn⟩ : ∃ n, n = l.length := ⟨_, rfl⟩
  rw [← hn] at hpos hlen
  have hmono : ∀ i j (hi : i < s.length) (hj : j < s.length), i ≤ j → s[i] ≤ s[j] := by
    intro i j hi hj hij
    rcases hij.lt_or_eq with hlt | rfl
    · exact List.pairwise_iff_getElem.1 hsort i j hi hj hlt
    · exact le_rfl
  have hlo : ∀ i (hi : i < s.length), 2 * i < n → s[i] ≤ c := by
    intro i hi h2
    rw [hc]
    unfold median
    simp only
    rw [← hs, ← hn]
    by_cases hodd : n % 2 = 1
    · rw [if_pos hodd, List.getD_eq_getElem _ _ (by omega)]
      exact hmono _ _ _ _ (by omega)
    · rw [if_neg hodd, List.getD_eq_getElem _ _ (by omega), List.getD_eq_getElem _ _ (by omega)]
      have h3 := hmono i (n / 2 - 1) hi (by omega) (by omega)
      have h4 := hmono i (n / 2) hi (by omega) (by omega)
      linarith
  have hhi : ∀ i (hi : i < s.length), n ≤ 2 * i + 1 → c ≤ s[i] := by
    intro i hi h2
    rw [hc]
    unfold median
    simp only
    rw [← hs, ← hn]
    by_cases hodd : n % 2 = 1
    · rw [if_pos hodd, List.getD_eq_getElem _ _ (by omega)]
      exact hmono _ _ _ _ (by omega)
    · rw [if_neg hodd, List.getD_eq_getElem _ _ (by omega), List.getD_eq_getElem _ _ (by omega)]
      have h3 := hmono (n / 2 - 1) i (by omega) hi (by omega)
      have h4 := hmono (n / 2) i (by omega) hi (by omega)
      linarith
  have hcount : ∀ (q : ℝ → Bool), (l.filter q).length = (s.filter q).length := fun q => ((hperm.filter q).length_eq).symm
  rw [← hc]
  unfold Spec.IsMedian
  rw [← hn]
  constructor
  · rw [hcount]
    have hsub : (s.take ((n + 1) / 2)).length ≤ (s.filter fun x => x ≤ c).length := by
      have : (s.take ((n + 1) / 2)).filter (fun x => x ≤ c) = s.take ((n + 1) / 2) := by
        rw [List.filter_eq_self]
        intro x hx
        obtain ⟨i, hi, rfl⟩ := List.mem_iff_getElem.1 hx
        rw [List.length_take] at hi
        rw [List.getElem_take]
        exact decide_eq_true (hlo i (by omega) (by omega))
      rw [← this]
      exact ((List.take_sublist _ _).filter _).length_le
    rw [List.length_take] at hsub
    omega
  · rw [hcount]
    have hsub : (s.drop (n / 2)).length ≤ (s.filter fun x => c ≤ x).length := by
      have : (s.drop (n / 2)).filter (fun x => c ≤ x) = s.drop (n / 2) := by
        rw [List.filter_eq_self]
        intro x hx
        obtain ⟨i, hi, rfl⟩ := List.mem_iff_getElem.1 hx
        rw [List.length_drop] at hi
        rw [List.getElem_drop]
        exact decide_eq_true (hhi (n / 2 + i) (by omega) (by omega))
      rw [← this]
      exact ((List.drop_sublist _ _).filter _).length_le
    rw [List.length_drop] at hsub
    omega

/-- a median lies between bounds of the entries -/
theorem median_between {l : List ℝ} (h : l ≠ []) {c lo hi : ℝ} (hc : Spec.IsMedian l c) (hlo : ∀ x ∈ l, lo ≤ x)
    (hhi : ∀ x ∈ l, x ≤ hi) : lo ≤ c ∧ c ≤ hi := by
  have hpos : 0 < l.length := List.length_pos_iff.2 h
  obtain ⟨h1, h2⟩ := hc
  constructor
  · have : (l.filter fun x => x ≤ c) ≠ [] := by
      intro h0
      rw [h0] at h1
      simp at h1
      exact h h1
    obtain ⟨x, hx⟩ := List.exists_mem_of_ne_nil _ this
    rw [List.mem_filter] at hx
    exact (hlo x hx.1).trans (of_decide_eq_true hx.2)
  · have : (l.filter fun x => c ≤ x) ≠ [] := by
      intro h0
      rw [h0] at h2
      simp at h2
      exact h h2
    obtain ⟨x, hx⟩ := List.exists_mem_of_ne_nil _ this
    rw [List.mem_filter] at hx
    exact (of_decide_eq_true hx.2).trans (hhi x hx.1)

/-- **C104.** After runs with the three values of `k` (among any others, in any order, in any directory) the reports 3 and 4 succeed.
Report 3 draws 36 curves; report 4 shows for each number of basis functions the smallest error of the 36 cases, a median and the
largest. -/
theorem C104_reports {jv : ℝ → ℝ → ℝ} {lstsq : Lstsq} {sv : List (List ℂ) → List ℝ} {str : ℝ → String} {ks : List ℝ}
    (hs : ∀ k ∈ ks, ∀ k' ∈ ks, str k = str k' → k = k') (hks : ∀ k ∈ reportK, k ∈ ks) {get : ℝ → String → StudyProblem}
    {c : TKey → ℕ → List ℂ} {s : TKey → ℕ → List ℝ} (h : TrendOk jv lstsq sv ks get c s) (F : Files) :
    ∃ (F' : Files) (e : String × String × ℝ → ℕ → ℝ), ks.foldlM (fun F k => generateData2 jv lstsq sv str (get k) F) F = .ok F' ∧
      (∀ x ∈ reportCases, ∀ i < 54,
        Spec.IsLargest (absDiffs (c (x.2.2, x.1, x.2.1) (10 + 5 * i)) ((get x.2.2 x.1).fftA.take 7)) (e x i)) ∧
      report3 str F' = .ok (reportCases.map fun x => (trendM1, (List.range 54).map (e x))) ∧
      ∃ out : ℕ → ℝ × ℝ × ℝ, report4 str F' = .ok ((List.range 54).map out) ∧
        ∀ i < 54, (out i).1 ∈ reportCases.map (e · i) ∧ (∀ x ∈ reportCases, (out i).1 ≤ e x i) ∧
          Spec.IsMedian (reportCases.map (e · i)) (out i).2.1 ∧ Spec.IsLargest (reportCases.map (e · i)) (out i).2.2 ∧
          (out i).1 ≤ (out i).2.1 ∧ (out i).2.1 ≤ (out i).2.2 := by
  obtain ⟨F', hrun, hfiles, -⟩ := C104_runs hs h F
  have hex : ∀ x : String × String × ℝ, ∃ e : ℕ → ℝ, x ∈ reportCases → ∀ i < 54,
      arrMax (absDiffs (c (x.2.2, x.1, x.2.1) (10 + 5 * i)) ((get x.2.2 x.1).fftA.take 7)) = .ok (e i) ∧
      Spec.IsLargest (absDiffs (c (x.2.2, x.1, x.2.1) (10 + 5 * i)) ((get x.2.2 x.1).fftA.take 7)) (e i) := by
    intro x
    by_cases hx : x ∈ reportCases
    · obtain ⟨h1, h2, h3⟩ := mem_reportCases.1 hx
      obtain ⟨e, he⟩ := exists_errors (c := c (x.2.2, x.1, x.2.1)) (f := (get x.2.2 x.1).fftA.take 7)
        (by rw [List.length_take]; exact min_eq_left (h.fft _ (hks _ h3) _ h1)) (h.seven _ (hks _ h3) _ h1 _ h2)
      exact ⟨e, fun _ => he⟩
    · exact ⟨fun _ => 0, fun h => absurd h hx⟩
  choose e he using hex
  have hfile : ∀ x ∈ reportCases, readTrend F' (trendName x.1 x.2.1 (str x.2.2)) = .ok (keyTrend get c s (x.2.2, x.1, x.2.1)) := by
    intro x hx
    obtain ⟨h1, h2, h3⟩ := mem_reportCases.1 hx
    unfold readTrend
    rw [hfiles _ (hks _ h3) _ h1 _ h2]
  refine ⟨F', e, hrun, fun x hx i hi => (he x hx i hi).2, ?_, ?_⟩
  · unfold report3
    refine mapM_rep fun x hx => ?_
    obtain ⟨h1, h2, h3⟩ := mem_reportCases.1 hx
    rw [hfile x hx]
    show liftPy (trendCurve (trendOf _ _ _)) = _
    rw [trendCurve_eq (fun i hi => (he x hx i hi).1) (h.sing _ (hks _ h3) _ h1 _ h2)]
    rfl
  · have hall : allError str F' = .ok (reportCases.map fun x => (List.range 54).map (e x)) := by
      unfold allError
      refine mapM_rep fun x hx => ?_
      rw [hfile x hx]
      show liftPy (errorRow (trendOf _ _ _)) = _
      rw [errorRow_eq (fun i hi => (he x hx i hi).1)]
      rfl
    have hcol : ∀ i < 54, ((reportCases.map fun x => (List.range 54).map (e x)).map fun row => row.getD i 0) =
        reportCases.map (e · i) := by
      intro i hi
      rw [List.map_map]
      refine List.map_congr_left fun x _ => ?_
      simp [hi]
    have hne : ∀ i, reportCases.map (e · i) ≠ [] := by
      intro i h0
      have := congrArg List.length h0
      rw [List.length_map, reportCases_length] at this
      simp at this
    have hmin : ∀ i, ∃ lo, arrMin (reportCases.map (e · i)) = .ok lo ∧ lo ∈ reportCases.map (e · i) ∧
        ∀ y ∈ reportCases.map (e · i), lo ≤ y := by
      intro i
      have := hne i
      cases hl : reportCases.map (e · i) with
      | nil => exact absurd hl this
      | cons x l => exact ⟨_, rfl, foldl_min_smallest l x⟩
    choose lo hlo using hmin
    have hmax : ∀ i, ∃ hi, arrMax (reportCases.map (e · i)) = .ok hi ∧ Spec.IsLargest (reportCases.map (e · i)) hi :=
      fun i => arrMax_largest (hne i)
    choose hi hhi using hmax
    refine ⟨fun i => (lo i, median (reportCases.map (e · i)), hi i), ?_, ?_⟩
    · unfold report4
      rw [hall]
      rw [rep_ok_bind]
      refine mapM_rep fun i him => ?_
      rw [List.mem_range] at him
      simp only
      rw [hcol i him, (hlo i).1, (hhi i).1]
      rfl
    · intro i him
      have hb := median_between (hne i) (C104_median (hne i)) (hlo i).2.2 (hhi i).2.2
      exact ⟨(hlo i).2.1, fun x hx => (hlo i).2.2 _ (List.mem_map_of_mem hx), C104_median (hne i), (hhi i).2, hb.1, hb.2⟩

/-- **C104.** After one run in an empty directory the reports 3 and 4 stop with a FileNotFoundError, whatever the value of `k`. -/
theorem C104_missing {jv : ℝ → ℝ → ℝ} {lstsq : Lstsq} {sv : List (List ℂ) → List ℝ} {str : ℝ → String} {k : ℝ}
    (hs : ∀ x ∈ k :: reportK, ∀ y ∈ k :: reportK, str x = str y → x = y) {get : ℝ → String → StudyProblem}
    {c : TKey → ℕ → List ℂ} {s : TKey → ℕ → List ℝ} (h : TrendOk jv lstsq sv [k] get c s) :
    ∃ F', generateData2 jv lstsq sv str (get k) (fun _ => none) = .ok F' ∧
      ∃ n, report3 str F' = .error (.fileNotFound n) ∧ report4 str F' = .error (.fileNotFound n) ∧
        n = trendName "trace-hat" "outer-sine" (str (if k = 3.25 then 6.75 else 3.25)) := by
  obtain ⟨F', hrun, hfiles, hother⟩ := C104_runs (str := str) (ks := [k]) (fun x hx y hy => by
    rw [List.mem_singleton.1 hx, List.mem_singleton.1 hy]; exact fun _ => rfl) h (fun _ => none)
  have hrun' : generateData2 jv lstsq sv str (get k) (fun _ => none) = .ok F' := by
    cases hg : generateData2 jv lstsq sv str (get k) (fun _ => none) <;>
      simp [List.foldlM_cons, hg, bind, Except.bind, pure, Except.pure] at hrun
    rw [hrun]
  refine ⟨F', hrun', _, ?_, ?_, rfl⟩
  all_goals
    have hnone : ∀ q ∈ reportK, q ≠ k → F' (trendName "trace-hat" "outer-sine" (str q)) = none := by
      intro q hq hne
      refine hother _ ?_
      intro k' hk' p hp b hb e
      rw [List.mem_singleton.1 hk'] at e
      obtain ⟨-, -, h3⟩ := C104_names (by decide) hp (by decide) hb e
      exact hne (hs q (by simp [hq]) k (by simp) h3)
    have hcons : ∃ rest, reportCases = ("trace-hat", "outer-sine", 3.25) :: ("trace-hat", "outer-sine", 6.75) :: rest := ⟨_, rfl⟩
    obtain ⟨rest, hcons⟩ := hcons
  · unfold report3
    rw [hcons, List.mapM_cons]
    by_cases hk : k = 3.25
    · subst hk
      rw [if_pos rfl, List.mapM_cons]
      have h1 := hfiles 3.25 (by simp) "trace-hat" (by decide) "outer-sine" (by decide)
      have hf : ((get 3.25 "trace-hat").fftA.take 7).length = 7 := by
        rw [List.length_take]
        exact min_eq_left (h.fft 3.25 (by simp) "trace-hat" (by decide))
      obtain ⟨e, he⟩ := exists_errors hf (h.seven 3.25 (by simp) "trace-hat" (by decide) "outer-sine" (by decide))
      have h2 := trendCurve_eq (s := s (3.25, "trace-hat", "outer-sine")) (fun i hi => (he i hi).1)
        (h.sing 3.25 (by simp) _ (by decide) _ (by decide))
      have h0 := hnone 6.75 (by simp [reportK]) (by norm_num)
      simp only [readTrend, h1, h0, bind, Except.bind, keyTrend, h2, liftPy]
    · rw [if_neg hk]
      have h0 := hnone 3.25 (by simp [reportK]) (fun h => hk h.symm)
      simp only [readTrend, h0, bind, Except.bind]
  · unfold report4 allError
    rw [hcons, List.mapM_cons]
    by_cases hk : k = 3.25
    · subst hk
      rw [if_pos rfl, List.mapM_cons]
      have h1 := hfiles 3.25 (by simp) "trace-hat" (by decide) "outer-sine" (by decide)
      have hf : ((get 3.25 "trace-hat").fftA.take 7).length = 7 := by
        rw [List.length_take]
        exact min_eq_left (h.fft 3.25 (by simp) "trace-hat" (by decide))
      obtain ⟨e, he⟩ := exists_errors hf (h.seven 3.25 (by simp) "trace-hat" (by decide) "outer-sine" (by decide))
      have h2 := errorRow_eq (s := s (3.25, "trace-hat", "outer-sine")) (fun i hi => (he i hi).1)
      have h0 := hnone 6.75 (by simp [reportK]) (by norm_num)
      simp only [readTrend, h1, h0, bind, Except.bind, keyTrend, h2, liftPy]
    · rw [if_neg hk]
      have h0 := hnone 3.25 (by simp [reportK]) (fun h => hk h.symm)
      simp only [readTrend, h0, bind, Except.bind]

/-- **C104.** Report 2 succeeds after a run with `k = 6.75`, and stops with a FileNotFoundError after one with another value in an empty
directory. -/
theorem C104_report2 {jv : ℝ → ℝ → ℝ} {lstsq : Lstsq} {sv : List (List ℂ) → List ℝ} {str : ℝ → String} {k : ℝ}
    (hs : str k = str 6.75 → k = 6.75) {get : ℝ → String → StudyProblem}
    {c : TKey → ℕ → List ℂ} {s : TKey → ℕ → List ℝ} (h : TrendOk jv lstsq sv [k] get c s) :
    ∃ F', generateData2 jv lstsq sv str (get k) (fun _ => none) = .ok F' ∧
      ((∃ curves, report2 str F' = .ok curves) ↔ k = 6.75) ∧
      (k ≠ 6.75 → report2 str F' = .error (.fileNotFound (trendName "trace-line-sine" "inner-sine" (str 6.75)))) := by
  obtain ⟨F', hrun, hfiles, hother⟩ := C104_runs (str := str) (ks := [k]) (fun x hx y hy => by
    rw [List.mem_singleton.1 hx, List.mem_singleton.1 hy]; exact fun _ => rfl) h (fun _ => none)
  have hrun' : generateData2 jv lstsq sv str (get k) (fun _ => none) = .ok F' := by
    cases hg : generateData2 jv lstsq sv str (get k) (fun _ => none) <;>
      simp [List.foldlM_cons, hg, bind, Except.bind, pure, Except.pure] at hrun
    rw [hrun]
  have hbad : k ≠ 6.75 → report2 str F' = .error (.fileNotFound (trendName "trace-line-sine" "inner-sine" (str 6.75))) := by
    intro hk
    have h0 : F' (trendName "trace-line-sine" "inner-sine" (str 6.75)) = none := by
      refine hother _ ?_
      intro k' hk' p hp b hb e
      rw [List.mem_singleton.1 hk'] at e
      obtain ⟨-, -, h3⟩ := C104_names (by decide) hp (by decide) hb e
      exact hk (hs h3.symm)
    unfold report2 report2Cases
    rw [List.mapM_cons]
    simp only [readTrend, h0, bind, Except.bind]
  refine ⟨F', hrun', ⟨?_, ?_⟩, hbad⟩
  · rintro ⟨curves, hc⟩
    by_contra hk
    rw [hbad hk] at hc
    cases hc
  · intro hk
    have hread : ∀ x ∈ report2Cases, ∃ y, (do
        let t ← readTrend F' (trendName x.1 x.2 (str 6.75))
        liftPy (trendCurve t)) = .ok y := by
      intro x hx
      have hx' : x.1 ∈ trendProblems ∧ x.2 ∈ trendBoundaries := by
        revert x; decide
      have h1 := hfiles k (by simp) _ hx'.1 _ hx'.2
      have hf : ((get k x.1).fftA.take 7).length = 7 := by
        rw [List.length_take]
        exact min_eq_left (h.fft k (by simp) _ hx'.1)
      obtain ⟨e, he⟩ := exists_errors hf (h.seven k (by simp) _ hx'.1 _ hx'.2)
      have h2 := trendCurve_eq (s := s (k, x.1, x.2)) (fun i hi => (he i hi).1) (h.sing k (by simp) _ hx'.1 _ hx'.2)
      rw [hk] at h1 h2
      simp only [readTrend, h1, bind, Except.bind, keyTrend, h2, liftPy]
      exact ⟨_, rfl⟩
    have : ∀ x : String × String, ∃ y, x ∈ report2Cases → (do
        let t ← readTrend F' (trendName x.1 x.2 (str 6.75))
        liftPy (trendCurve t)) = .ok y := by
      intro x
      by_cases hx : x ∈ report2Cases
      · obtain ⟨y, hy⟩ := hread x hx
        exact ⟨y, fun _ => hy⟩
      · exact ⟨([], []), fun h => absurd h hx⟩
    choose g hg using this
    exact ⟨_, mapM_rep (g := g) hg⟩

/-- Python's `str` of the three numbers -/
noncomputable def demoStr (x : ℝ) : String :=
  if x = 3.25 then "3.25" else if x = 6.75 then "6.75" else if x = 10.75 then "10.75" else "0.0"

/-- C104: the assumptions of the theorems are met for the three values of `k` when the least-squares routine returns `m/100` for a system
with `m` columns -/
example : (∀ k ∈ reportK, ∀ k' ∈ reportK, demoStr k = demoStr k' → k = k') ∧
    TrendOk (fun _ _ => 1) (fun A _ => List.replicate A.length ((A.length : ℂ) / 100)) (fun _ => [1]) reportK (fun k _ => demoProblem k)
      (fun _ m => (List.replicate m ((m : ℂ) / 100)).take 7) (fun _ _ => [1]) := by
  refine ⟨?_, ?_, ?_, ?_, ?_, ?_⟩
  · simp only [reportK, List.mem_cons, List.not_mem_nil, or_false]
    rintro k (rfl | rfl | rfl) k' (rfl | rfl | rfl) <;> norm_num [demoStr] <;> decide
  · intros; rfl
  · intro k _ p _
    show 7 ≤ (List.replicate 300 (1 : ℂ)).length
    rw [List.length_replicate]
    norm_num
  · intro k _ p _ b _ r _ m _
    unfold abCalcFull
    simp only
    rw [abColumns_eq _ abNodes r _ _ _ _ studyM m fun j _ _ => one_ne_zero, ok_bind]
    simp [studyM]
  · intro k _ p _ b _ m hm
    obtain ⟨i, -, rfl⟩ := List.mem_map.1 hm
    simp
    omega
  · intros; simp

/-- C104: the median of four numbers -/
example : median [5, 1, 4, 2] = 3 := by
  have : [5, 1, 4, 2].insertionSort (fun x y : ℝ => x ≤ y) = [1, 2, 4, 5] := by
    norm_num [List.insertionSort, List.orderedInsert]
  simp only [median, this]
  norm_num

end Pot
