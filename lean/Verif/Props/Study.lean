import Verif.Model.Study
import Verif.Spec.Study
import Verif.Props.ABCoef

/-!
# C103: what `generate_data.py` records and `generate_report.py` prints

For every problem and boundary the recorded number of basis functions is the first one with the smallest error, and the report finds
every entry it asks for.
-/

namespace Pot
open Real Classical

/-- the absolute differences of two lists -/
noncomputable def absDiffs (a b : List ℂ) : List ℝ := List.zipWith (fun x y => ‖x - y‖) a b

/-- what is recorded about a boundary when `m` is the best choice, `c` the coefficients found and `f` those expected -/
noncomputable def record (bet : ℝ) (m : ℕ) (c f : List ℂ) (e : ℝ) : Dict BVal :=
  [("bet", .num bet), ("m1", .num m), ("a_coef", .arr (c.map Complex.re)), ("fft_a_coef", .arr (f.map Complex.re)),
   ("error", .arr (List.zipWith (fun x y => x.re - y.re) c f)), ("error7", .num e)]

/-- seven real coefficients -/
def SevenReal (c : List ℂ) : Prop := c.length = 7 ∧ ∀ z ∈ c, z.im = 0

theorem foldl_max_largest : ∀ (l : List ℝ) (x : ℝ), Spec.IsLargest (x :: l) (l.foldl max x)
  | [], x => by simp [Spec.IsLargest]
  | y :: l, x => by
    obtain ⟨h1, h2⟩ := foldl_max_largest l (max x y)
    refine ⟨?_, ?_⟩
    · show List.foldl max (max x y) l ∈ _
      rcases List.mem_cons.1 h1 with h | h
      · rcases max_choice x y with hm | hm <;> rw [hm] at h ⊢ <;> rw [h] <;> simp
      · exact List.mem_cons_of_mem _ (List.mem_cons_of_mem _ h)
    · intro z hz
      show z ≤ List.foldl max (max x y) l
      have h0 : max x y ≤ List.foldl max (max x y) l := h2 _ (by simp)
      rcases List.mem_cons.1 hz with rfl | hz
      · exact (le_max_left _ _).trans h0
      rcases List.mem_cons.1 hz with rfl | hz
      · exact (le_max_right _ _).trans h0
      · exact h2 z (List.mem_cons_of_mem _ hz)

theorem arrMax_largest {l : List ℝ} (h : l ≠ []) : ∃ e, arrMax l = .ok e ∧ Spec.IsLargest l e := by
  cases l with
  | nil => exact absurd rfl h
  | cons x l => exact ⟨_, rfl, foldl_max_largest l x⟩

theorem isLargest_unique {l : List ℝ} {x y : ℝ} (hx : Spec.IsLargest l x) (hy : Spec.IsLargest l y) : x = y :=
  le_antisymm (hy.2 _ hx.1) (hx.2 _ hy.1)

theorem toBasicList_real {c : List ℂ} (h : ∀ z ∈ c, z.im = 0) : toBasicList c = .ok (c.map Complex.re) := if_pos h

/-- a step of the search with seven real coefficients -/
theorem searchStep_real {calcA : ℕ → Py (List ℂ)} {f c : List ℂ} (hf : SevenReal f) {m : ℕ} (hm : calcA m = .ok c)
    (hc : SevenReal c) (st : WithTop ℝ × Dict BVal) :
    ∃ e : ℝ, Spec.IsLargest (absDiffs c f) e ∧
      searchStep calcA f st m = .ok (if (e : WithTop ℝ) < st.1 then
        (↑e, ((((st.2.set "m1" (.num m)).set "a_coef" (.arr (c.map Complex.re))).set "fft_a_coef" (.arr (f.map Complex.re))).set
          "error" (.arr (List.zipWith (fun x y => x.re - y.re) c f))).set "error7" (.num e)) else st) := by
  have hl : c.length = f.length := by rw [hf.1, hc.1]
  have hsub : arrSub c f = .ok (List.zipWith (· - ·) c f) := if_pos hl
  have habs : arrAbs (List.zipWith (· - ·) c f) = absDiffs c f := by
    simp [arrAbs, absDiffs, List.map_zipWith]
  have hne : absDiffs c f ≠ [] := by
    intro h
    have := congrArg List.length h
    simp [absDiffs, hf.1, hc.1] at this
  obtain ⟨e, he, hlar⟩ := arrMax_largest hne
  refine ⟨e, hlar, ?_⟩
  have hre : ∀ z ∈ List.zipWith (· - ·) c f, z.im = 0 := by
    intro z hz
    obtain ⟨i, hi, rfl⟩ := List.mem_iff_getElem.1 hz
    simp only [List.getElem_zipWith, Complex.sub_im]
    rw [hc.2 _ (List.getElem_mem _), hf.2 _ (List.getElem_mem _), sub_zero]
  have hmap : (List.zipWith (· - ·) c f).map Complex.re = List.zipWith (fun x y => x.re - y.re) c f := by
    simp [List.map_zipWith]
  unfold searchStep
  rw [hm, ]
  simp only [bind, Except.bind, hsub, habs, he]
  by_cases h : (e : WithTop ℝ) < st.1
  · simp only [h, if_true, toBasicList_real hc.2, toBasicList_real hf.2, toBasicList_real hre, hmap]
    rfl
  · simp only [h, if_false]
    rfl

theorem record_set (bet : ℝ) (m m' : ℕ) (c c' f : List ℂ) (e e' : ℝ) :
    (((((record bet m c f e).set "m1" (.num m')).set "a_coef" (.arr (c'.map Complex.re))).set "fft_a_coef"
      (.arr (f.map Complex.re))).set "error" (.arr (List.zipWith (fun x y => x.re - y.re) c' f))).set "error7" (.num e') =
    record bet m' c' f e' := by
  simp [record, Dict.set]

theorem first_set (bet : ℝ) (m' : ℕ) (c' f : List ℂ) (e' : ℝ) :
    (((((Dict.set [("bet", BVal.num bet)] "m1" (.num m')).set "a_coef" (.arr (c'.map Complex.re))).set "fft_a_coef"
      (.arr (f.map Complex.re))).set "error" (.arr (List.zipWith (fun x y => x.re - y.re) c' f))).set "error7" (.num e')) =
    record bet m' c' f e' := by
  simp [record, Dict.set]

/-- the rest of the search, from a state that records the first minimum so far -/
theorem search_rest {calcA : ℕ → Py (List ℂ)} {f : List ℂ} (hf : SevenReal f) {c : ℕ → List ℂ} {e : ℕ → ℝ} (bet : ℝ) :
    ∀ (l done : List ℕ) (m : ℕ), (∀ x ∈ l, calcA x = .ok (c x)) → (∀ x ∈ l, SevenReal (c x)) →
      (∀ x ∈ l, Spec.IsLargest (absDiffs (c x) f) (e x)) → Spec.FirstMin e done m →
      ∃ m', Spec.FirstMin e (done ++ l) m' ∧
        l.foldlM (searchStep calcA f) ((e m : WithTop ℝ), record bet m (c m) f (e m)) =
          .ok ((e m' : WithTop ℝ), record bet m' (c m') f (e m'))
  | [], done, m, _, _, _, h => ⟨m, by simpa using h, rfl⟩
  | x :: l, done, m, h1, h2, h3, h => by
    obtain ⟨e', he', hs⟩ := searchStep_real hf (h1 x (by simp)) (h2 x (by simp)) ((e m : WithTop ℝ), record bet m (c m) f (e m))
    have hee : e' = e x := isLargest_unique he' (h3 x (by simp))
    subst hee
    rw [List.foldlM_cons, hs]
    have happ : done ++ x :: l = (done ++ [x]) ++ l := by simp
    rw [happ]
    obtain ⟨pre, post, hd, hp1, hp2⟩ := h
    by_cases hlt : e x < e m
    · have hlt' : ((e x : ℝ) : WithTop ℝ) < (e m : WithTop ℝ) := WithTop.coe_lt_coe.2 hlt
      obtain ⟨m', hm', hr⟩ := search_rest hf bet l (done ++ [x]) x (fun y hy => h1 y (by simp [hy])) (fun y hy => h2 y (by simp [hy]))
        (fun y hy => h3 y (by simp [hy])) ⟨done, [], rfl, fun y hy => by
          rw [hd] at hy
          rcases List.mem_append.1 hy with hy | hy
          · exact hlt.trans (hp1 y hy)
          · rcases List.mem_cons.1 hy with rfl | hy
            · exact hlt
            · exact hlt.trans_le (hp2 y hy), by simp⟩
      refine ⟨m', hm', ?_⟩
      simp only [hlt', if_true, record_set, bind, Except.bind]
      exact hr
    · have hlt' : ¬ ((e x : ℝ) : WithTop ℝ) < (e m : WithTop ℝ) := fun h => hlt (WithTop.coe_lt_coe.1 h)
      obtain ⟨m', hm', hr⟩ := search_rest hf bet l (done ++ [x]) m (fun y hy => h1 y (by simp [hy])) (fun y hy => h2 y (by simp [hy]))
        (fun y hy => h3 y (by simp [hy])) ⟨pre, post ++ [x], by simp [hd], hp1, fun y hy => by
          rcases List.mem_append.1 hy with hy | hy
          · exact hp2 y hy
          · rw [List.mem_singleton.1 hy]
            exact not_lt.1 hlt⟩
      refine ⟨m', hm', ?_⟩
      simp only [hlt', if_false, bind, Except.bind]
      exact hr

theorem studyM1_cons : studyM1 = 8 :: (List.range 120).map fun i => 10 + 2 * i := by
  unfold studyM1
  rw [List.range_succ_eq_map]
  simp only [List.map_cons, List.map_map]
  congr 1

/-- **C103.** If the computation succeeds for every number of basis functions and yields seven real coefficients, what is recorded is
the first number of basis functions with the smallest error, with its coefficients, the differences and the largest difference. -/
theorem C103_search {calcA : ℕ → Py (List ℂ)} {f : List ℂ} (hf : SevenReal f) {c : ℕ → List ℂ} (bet : ℝ)
    (hcalc : ∀ m ∈ studyM1, calcA m = .ok (c m)) (hc : ∀ m ∈ studyM1, SevenReal (c m)) :
    ∃ (e : ℕ → ℝ) (m : ℕ), (∀ x ∈ studyM1, Spec.IsLargest (absDiffs (c x) f) (e x)) ∧ Spec.FirstMin e studyM1 m ∧
      studyBoundary calcA f bet = .ok (record bet m (c m) f (e m)) := by
  have hex : ∀ x, ∃ ex, x ∈ studyM1 → Spec.IsLargest (absDiffs (c x) f) ex := by
    intro x
    by_cases hx : x ∈ studyM1
    · obtain ⟨ex, h, _⟩ := searchStep_real hf (hcalc x hx) (hc x hx) (⊤, [])
      exact ⟨ex, fun _ => h⟩
    · exact ⟨0, fun h => absurd h hx⟩
  choose e he using hex
  have h8 : 8 ∈ studyM1 := by rw [studyM1_cons]; simp
  obtain ⟨e8, he8, hs⟩ := searchStep_real hf (hcalc 8 h8) (hc 8 h8) (⊤, [("bet", BVal.num bet)])
  have hee : e8 = e 8 := isLargest_unique he8 (he 8 h8)
  subst hee
  obtain ⟨m, hm, hr⟩ := search_rest hf (calcA := calcA) (c := c) (e := e) bet ((List.range 120).map fun i => 10 + 2 * i) [8] 8
    (fun x hx => hcalc x (by rw [studyM1_cons]; exact List.mem_cons_of_mem _ hx))
    (fun x hx => hc x (by rw [studyM1_cons]; exact List.mem_cons_of_mem _ hx))
    (fun x hx => he x (by rw [studyM1_cons]; exact List.mem_cons_of_mem _ hx)) ⟨[], [], rfl, by simp, by simp⟩
  refine ⟨e, m, he, by rw [studyM1_cons]; exact hm, ?_⟩
  unfold studyBoundary
  rw [studyM1_cons, List.foldlM_cons, hs]
  simp only [WithTop.coe_lt_top, if_true, bind, Except.bind, first_set]
  rw [hr]
  rfl

/-- the first coefficients found are always recorded: with one that is not real the program stops with an AssertionError -/
theorem C103_not_real {calcA : ℕ → Py (List ℂ)} {f c : List ℂ} (bet : ℝ) (h8 : calcA 8 = .ok c) (hl : c.length = f.length)
    (hne : c ≠ []) {z : ℂ} (hz : z ∈ c) (him : z.im ≠ 0) : studyBoundary calcA f bet = .error .assertionError := by
  have hsub : arrSub c f = .ok (List.zipWith (· - ·) c f) := if_pos hl
  have hne' : arrAbs (List.zipWith (· - ·) c f) ≠ [] := by
    intro h
    have := congrArg List.length h
    simp [arrAbs, ← hl] at this
    exact hne this
  obtain ⟨e, he, -⟩ := arrMax_largest hne'
  have hb : toBasicList c = .error .assertionError := if_neg fun h => him (h z hz)
  unfold studyBoundary
  rw [studyM1_cons, List.foldlM_cons]
  have : searchStep calcA f (⊤, [("bet", BVal.num bet)]) 8 = .error .assertionError := by
    unfold searchStep
    simp only [h8, bind, Except.bind, hsub, he, WithTop.coe_lt_top, if_true, hb]
  rw [this]
  rfl

theorem foldl_series {α : Type} (g : α → ℝ) : ∀ (l : List α) (x : ℝ),
    (l.foldl (fun mx th => if g th > mx then g th else mx) x) = (l.map g).foldl max x
  | [], _ => rfl
  | y :: l, x => by
    rw [List.foldl_cons, foldl_series g l, List.map_cons, List.foldl_cons]
    congr 1
    by_cases h : g y > x
    · rw [if_pos h, max_eq_right h.le]
    · rw [if_neg h, max_eq_left (not_lt.1 h)]

/-- **C103.** The error of the series is the largest difference at the 1024 angles. -/
theorem C103_series (p : StudyProblem) : (∀ th ∈ linspace p.a (2 * π) 1024, ‖p.evalBc th - p.evalPhi0 th‖ ≤ seriesError p) ∧
    ∃ th ∈ linspace p.a (2 * π) 1024, seriesError p = ‖p.evalBc th - p.evalPhi0 th‖ := by
  have h : seriesError p = ((linspace p.a (2 * π) 1024).map fun th => ‖p.evalBc th - p.evalPhi0 th‖).foldl max 0 :=
    foldl_series (fun th => ‖p.evalBc th - p.evalPhi0 th‖) _ 0
  obtain ⟨h1, h2⟩ := foldl_max_largest ((linspace p.a (2 * π) 1024).map fun th => ‖p.evalBc th - p.evalPhi0 th‖) 0
  rw [← h] at h1 h2
  have hub : ∀ th ∈ linspace p.a (2 * π) 1024, ‖p.evalBc th - p.evalPhi0 th‖ ≤ seriesError p :=
    fun th hth => h2 _ (List.mem_cons_of_mem _ (List.mem_map_of_mem hth))
  refine ⟨hub, ?_⟩
  rcases List.mem_cons.1 h1 with h0 | h0
  · have hlen : (linspace p.a (2 * π) 1024) ≠ [] := by
      intro h
      have := congrArg List.length h
      simp [linspace] at this
    obtain ⟨th, hth⟩ := List.exists_mem_of_ne_nil _ hlen
    exact ⟨th, hth, le_antisymm (h0 ▸ norm_nonneg _) (hub th hth)⟩
  · obtain ⟨th, hth, he⟩ := List.mem_map.1 h0
    exact ⟨th, hth, he.symm⟩

/-- what is recorded about a problem, `rec b` being what is recorded about the boundary `b` -/
noncomputable def problemRecord (p : StudyProblem) (rec : String → Dict BVal) : Dict PVals :=
  [("k", .num p.k), ("arc", .obj (rec "arc")), ("series_error", .num (seriesError p)), ("outer-sine", .obj (rec "outer-sine")),
   ("inner-sine", .obj (rec "inner-sine")), ("sine7", .obj (rec "sine7")), ("cubic", .obj (rec "cubic"))]

/-- the names in the table of boundaries -/
theorem boundaryTable_names (R a : ℝ) : (boundaryTable R a).map Prod.fst = ["arc", "outer-sine", "inner-sine", "sine7", "cubic"] := rfl

theorem studyProblem_eq {jv : ℝ → ℝ → ℝ} {lstsq : Lstsq} {p : StudyProblem} {rec : String → Dict BVal}
    (h : ∀ b ∈ boundaryTable p.R probA,
      studyBoundary (studyCalc jv lstsq p b.2) (p.fftA.take studyM) (bet0 b.1) = .ok (rec b.1)) :
    studyProblem jv lstsq p = .ok (problemRecord p rec) := by
  unfold studyProblem
  simp only [boundaryTable, List.mem_cons, List.not_mem_nil, or_false, forall_eq_or_imp, forall_eq] at h ⊢
  obtain ⟨h1, h2, h3, h4, h5⟩ := h
  simp only [List.foldlM_cons, List.foldlM_nil, h1, h2, h3, h4, h5, bind, Except.bind, pure, Except.pure, if_true]
  simp [Dict.set, problemRecord]

/-- the assumptions on the computations: for both problems, every boundary and every number of basis functions the computation gives
seven real coefficients `c n b m`, and the expected coefficients are real and at least seven -/
structure StudyOk (jv : ℝ → ℝ → ℝ) (lstsq : Lstsq) (get : String → StudyProblem) (c : String → String → ℕ → List ℂ) : Prop where
  fft : ∀ n ∈ studyProblems, SevenReal ((get n).fftA.take 7)
  run : ∀ n ∈ studyProblems, ∀ b ∈ boundaryTable (get n).R probA, ∀ m ∈ studyM1, studyCalc jv lstsq (get n) b.2 m = .ok (c n b.1 m)
  real : ∀ n ∈ studyProblems, ∀ b ∈ boundaryTable (get n).R probA, ∀ m ∈ studyM1, SevenReal (c n b.1 m)

/-- `m` and `e` are the best choice and its error for every problem and boundary -/
def IsBest (get : String → StudyProblem) (c : String → String → ℕ → List ℂ) (m : String → String → ℕ) (e : String → String → ℝ) :
    Prop :=
  ∀ n ∈ studyProblems, ∀ b ∈ ["arc", "outer-sine", "inner-sine", "sine7", "cubic"],
    ∃ err : ℕ → ℝ, (∀ x ∈ studyM1, Spec.IsLargest (absDiffs (c n b x) ((get n).fftA.take 7)) (err x)) ∧
      Spec.FirstMin err studyM1 (m n b) ∧ e n b = err (m n b)

/-- the record of the boundary `b` in the problem `n` -/
noncomputable def bestRecord (get : String → StudyProblem) (c : String → String → ℕ → List ℂ) (m : String → String → ℕ)
    (e : String → String → ℝ) (n b : String) : Dict BVal :=
  record (bet0 b) (m n b) (c n b (m n b)) ((get n).fftA.take 7) (e n b)

/-- **C103.** What `generate_data.py` writes. -/
theorem C103_data {jv : ℝ → ℝ → ℝ} {lstsq : Lstsq} {get : String → StudyProblem} {c : String → String → ℕ → List ℂ}
    (h : StudyOk jv lstsq get c) : ∃ m e, IsBest get c m e ∧
      generateData jv lstsq get = .ok [("trace-line-sine", problemRecord (get "trace-line-sine") (bestRecord get c m e "trace-line-sine")),
        ("trace-parabola", problemRecord (get "trace-parabola") (bestRecord get c m e "trace-parabola"))] := by
  have key : ∀ n b, ∃ (mm : ℕ) (ee : ℝ), n ∈ studyProblems → ∀ r, (b, r) ∈ boundaryTable (get n).R probA →
      (∃ err : ℕ → ℝ, (∀ x ∈ studyM1, Spec.IsLargest (absDiffs (c n b x) ((get n).fftA.take 7)) (err x)) ∧
        Spec.FirstMin err studyM1 mm ∧ ee = err mm) ∧
      studyBoundary (studyCalc jv lstsq (get n) r) ((get n).fftA.take studyM) (bet0 b) =
        .ok (record (bet0 b) mm (c n b mm) ((get n).fftA.take 7) ee) := by
    intro n b
    by_cases hex : n ∈ studyProblems ∧ ∃ r, (b, r) ∈ boundaryTable (get n).R probA
    · obtain ⟨hn, r, hr⟩ := hex
      obtain ⟨err, mm, h1, h2, h3⟩ := C103_search (h.fft n hn) (bet0 b) (h.run n hn _ hr) (h.real n hn _ hr)
      refine ⟨mm, err mm, fun _ r' hr' => ?_⟩
      have : r' = r := by
        have hnd : ((boundaryTable (get n).R probA).map Prod.fst).Nodup := by rw [boundaryTable_names]; decide
        exact (Prod.mk.inj (List.inj_on_of_nodup_map hnd hr' hr rfl)).2
      subst this
      exact ⟨⟨err, h1, h2, rfl⟩, h3⟩
    · exact ⟨0, 0, fun hn r hr => absurd ⟨hn, r, hr⟩ hex⟩
  choose m e hme using key
  refine ⟨m, e, ?_, ?_⟩
  · intro n hn b hb
    rw [← boundaryTable_names (get n).R probA] at hb
    obtain ⟨⟨b', r⟩, hr, rfl⟩ := List.mem_map.1 hb
    exact (hme n b' hn r hr).1
  · have hp : ∀ n ∈ studyProblems, studyProblem jv lstsq (get n) = .ok (problemRecord (get n) (bestRecord get c m e n)) :=
      fun n hn => studyProblem_eq fun b hb => (hme n b.1 hn b.2 hb).2
    have h1 := hp "trace-line-sine" (by decide)
    have h2 := hp "trace-parabola" (by decide)
    simp only [generateData, studyProblems, List.foldlM_cons, List.foldlM_nil, h1, h2, bind, Except.bind, pure, Except.pure]
    simp [Dict.set]

/-- the two items of the report about a boundary -/
noncomputable def boundaryItems (bet : ℝ) (b : String) (m : ℕ) (c f : List ℂ) (e : ℝ) : List RItem :=
  [.boundary b bet m, .table 8 "error" (List.zipWith (fun x y => x.re - y.re) c f ++ [e])]

/-- **C103.** The report on the data of `generate_data.py`: no KeyError, and what it prints. -/
theorem C103_report {jv : ℝ → ℝ → ℝ} {lstsq : Lstsq} {get : String → StudyProblem} {c : String → String → ℕ → List ℂ}
    (h : StudyOk jv lstsq get c) : ∃ m e, IsBest get c m e ∧
      (generateData jv lstsq get >>= generateReport) = .ok
        (.problem "trace-line-sine" (get "trace-line-sine").k (seriesError (get "trace-line-sine")) ::
          .table 7 "expected" (((get "trace-line-sine").fftA.take 7).map Complex.re) ::
          (["arc", "outer-sine", "inner-sine", "cubic", "sine7"].flatMap fun b =>
            boundaryItems (bet0 b) b (m "trace-line-sine" b) (c "trace-line-sine" b (m "trace-line-sine" b))
              ((get "trace-line-sine").fftA.take 7) (e "trace-line-sine" b))) := by
  obtain ⟨m, e, hb, hd⟩ := C103_data h
  refine ⟨m, e, hb, ?_⟩
  rw [hd]
  simp [bind, Except.bind, pure, Except.pure, generateReport, reportProblems, reportProblem, Dict.get, Dict.pop, problemRecord,
    PVals.toNum, PVals.toObj, reportBoundaries, reportBoundary, Dict.num, Dict.arr, bestRecord, record, boundaryItems, List.lookup,
    studyM, List.filter]

/-- **C103.** Every table has as many numbers in its row as its heading has columns. -/
theorem C103_widths {jv : ℝ → ℝ → ℝ} {lstsq : Lstsq} {get : String → StudyProblem} {c : String → String → ℕ → List ℂ}
    (h : StudyOk jv lstsq get c) : ∃ items, (generateData jv lstsq get >>= generateReport) = .ok items ∧
      ∀ n s row, RItem.table n s row ∈ items → row.length = n := by
  obtain ⟨m, e, hb, hd⟩ := C103_report h
  refine ⟨_, hd, ?_⟩
  intro n s row hi
  have hf := (h.fft "trace-line-sine" (by decide)).1
  rcases List.mem_cons.1 hi with hi | hi
  · cases hi
  rcases List.mem_cons.1 hi with hi | hi
  · cases hi
    rw [List.length_map, hf]
  obtain ⟨b, hbm, hi⟩ := List.mem_flatMap.1 hi
  rcases List.mem_cons.1 hi with hi | hi
  · cases hi
  rw [List.mem_singleton] at hi
  cases hi
  have hbn : b ∈ ["arc", "outer-sine", "inner-sine", "sine7", "cubic"] := by
    simp only [List.mem_cons, List.not_mem_nil, or_false] at hbm ⊢
    tauto
  obtain ⟨err, -, ⟨pre, post, hl, -, -⟩, -⟩ := hb "trace-line-sine" (by decide) b hbn
  rw [← boundaryTable_names (get "trace-line-sine").R probA] at hbn
  obtain ⟨⟨b', r⟩, hr, rfl⟩ := List.mem_map.1 hbn
  have := (h.real "trace-line-sine" (by decide) _ hr (m "trace-line-sine" b') (by rw [hl]; simp)).1
  simp only [List.length_append, List.length_zipWith, hf, List.length_singleton]
  simp only at this
  rw [this]
  rfl

/-- real numbers, as complex ones -/
def AllReal (l : List ℂ) : Prop := ∀ z ∈ l, z.im = 0

/-- **C103.** The assumptions hold if the Bessel factors do not vanish, the least-squares routine returns one coefficient per column,
real ones for real data, and the solution is real and has at least seven real expected coefficients. -/
theorem C103_runs {jv : ℝ → ℝ → ℝ} {lstsq : Lstsq} {get : String → StudyProblem}
    (hJ : ∀ n ∈ studyProblems, ∀ m : ℕ, 7 < m → m ≤ 248 → jv (m * (get n).nu) ((get n).k * (get n).R) ≠ 0)
    (hlen : ∀ A b, (∀ col ∈ A, col.length = b.length) → (lstsq A b).length = A.length)
    (hreal : ∀ A b, (∀ col ∈ A, AllReal col) → AllReal b → AllReal (lstsq A b))
    (hsol : ∀ n ∈ studyProblems, ∀ r th, ((get n).evalPolar r th).im = 0)
    (hfft : ∀ n ∈ studyProblems, 7 ≤ (get n).fftA.length ∧ AllReal (get n).fftA) : ∃ c, StudyOk jv lstsq get c := by
  have key : ∀ n ∈ studyProblems, ∀ (r : ℝ → ℝ), ∀ m ∈ studyM1, ∃ c, studyCalc jv lstsq (get n) r m = .ok c ∧ SevenReal c := by
    intro n hn r m hm
    have hm' : 8 ≤ m ∧ m ≤ 248 := by
      simp only [studyM1, List.mem_map, List.mem_range] at hm
      obtain ⟨i, hi, rfl⟩ := hm
      omega
    unfold studyCalc abCalcACoef
    simp only
    rw [abColumns_eq jv abNodes r _ _ _ _ studyM m fun j h1 h2 => hJ n hn j h1 (by omega), ok_bind]
    refine ⟨_, rfl, ?_, ?_⟩
    · rw [List.length_take, hlen]
      · simp [studyM]; omega
      · intro col hcol
        simp only [List.mem_map] at hcol
        obtain ⟨j, -, rfl⟩ := hcol
        simp
    · intro z hz
      refine hreal _ _ ?_ ?_ z (List.mem_of_mem_take hz)
      · intro col hcol
        simp only [List.mem_map] at hcol
        obtain ⟨j, -, rfl⟩ := hcol
        intro w hw
        simp only [List.mem_map] at hw
        obtain ⟨i, -, rfl⟩ := hw
        split_ifs
        · rw [← Complex.ofReal_div, Complex.ofReal_im]
        · rw [div_one, Complex.ofReal_im]
      · intro w hw
        simp only [List.mem_map] at hw
        obtain ⟨i, -, rfl⟩ := hw
        exact hsol n hn _ _
  have hc : ∀ n b : String, ∃ f : ℕ → List ℂ, ∀ r, (b, r) ∈ boundaryTable (get n).R probA → n ∈ studyProblems → ∀ m ∈ studyM1,
      studyCalc jv lstsq (get n) r m = .ok (f m) ∧ SevenReal (f m) := by
    intro n b
    by_cases hex : n ∈ studyProblems ∧ ∃ r, (b, r) ∈ boundaryTable (get n).R probA
    · obtain ⟨hn, r, hr⟩ := hex
      have : ∀ m, ∃ c, m ∈ studyM1 → studyCalc jv lstsq (get n) r m = .ok c ∧ SevenReal c := by
        intro m
        by_cases hm : m ∈ studyM1
        · obtain ⟨c, h⟩ := key n hn r m hm
          exact ⟨c, fun _ => h⟩
        · exact ⟨[], fun h => absurd h hm⟩
      choose f hf using this
      refine ⟨f, fun r' hr' _ m hm => ?_⟩
      have : r' = r := by
        have hnd : ((boundaryTable (get n).R probA).map Prod.fst).Nodup := by rw [boundaryTable_names]; decide
        exact (Prod.mk.inj (List.inj_on_of_nodup_map hnd hr' hr rfl)).2
      subst this
      exact hf m hm
    · exact ⟨fun _ => [], fun r hr hn => absurd ⟨hn, r, hr⟩ hex⟩
  choose c hc using hc
  refine ⟨c, ?_, fun n hn b hb m hm => (hc n b.1 b.2 hb hn m hm).1, fun n hn b hb m hm => (hc n b.1 b.2 hb hn m hm).2⟩
  intro n hn
  refine ⟨?_, fun z hz => (hfft n hn).2 z (List.mem_of_mem_take hz)⟩
  rw [List.length_take]
  have := (hfft n hn).1
  omega

/-- a problem with expected coefficients 1 -/
noncomputable def demoProblem (k : ℝ) : StudyProblem where
  k := k
  R := probR
  a := probA
  nu := 4 / 7
  fftA := List.replicate 300 1
  evalBc := fun th => (sin th : ℝ)
  evalPhi0 := fun th => (sin th / 2 : ℝ)
  evalPolar := fun r th => (r * sin th : ℝ)

/-- C103: the assumptions are met when the least-squares routine returns `m/100` for a system with `m` columns -/
example : ∃ c, StudyOk (fun _ _ => 1) (fun A _ => List.replicate A.length ((A.length : ℂ) / 100)) (fun _ => demoProblem 3.25) c := by
  apply C103_runs
  · intros; norm_num
  · simp
  · intro A b _ _ z hz
    rw [List.mem_replicate] at hz
    rw [hz.2]
    have : ((A.length : ℂ) / 100) = (((A.length : ℝ) / 100 : ℝ) : ℂ) := by push_cast; rfl
    rw [this, Complex.ofReal_im]
  · intros; exact Complex.ofReal_im _
  · intros
    refine ⟨?_, ?_⟩
    · show 7 ≤ (List.replicate 300 (1 : ℂ)).length
      rw [List.length_replicate]
      norm_num
    intro z hz
    rw [demoProblem, List.mem_replicate] at hz
    rw [hz.2]
    rfl

/-- C103: the search over coefficients all equal to `m/100`, when 1 is expected, records `m1 = 100` -/
example : ∃ e : ℝ, studyBoundary (fun m => .ok (List.replicate 7 ((m : ℂ) / 100))) (List.replicate 7 1) 0.15 =
    .ok (record 0.15 100 (List.replicate 7 (((100 : ℕ) : ℂ) / 100)) (List.replicate 7 1) e) := by
  obtain ⟨e, m, h1, ⟨pre, post, hl, hp, hq⟩, h3⟩ := C103_search (calcA := fun m => .ok (List.replicate 7 ((m : ℂ) / 100)))
    (f := List.replicate 7 1) ⟨by simp, by simp⟩ (c := fun m => List.replicate 7 ((m : ℂ) / 100)) 0.15 (fun _ _ => rfl)
    (fun m _ => ⟨by simp, fun z hz => by
      rw [List.mem_replicate] at hz
      rw [hz.2]
      have : ((m : ℂ) / 100) = (((m : ℝ) / 100 : ℝ) : ℂ) := by push_cast; rfl
      rw [this, Complex.ofReal_im]⟩)
  have he : ∀ x ∈ studyM1, e x = |(x : ℝ) / 100 - 1| := by
    intro x hx
    have := (h1 x hx).1
    simp only [absDiffs, List.zipWith_replicate, List.mem_replicate] at this
    rw [this.2]
    have hh : ((x : ℂ) / 100 - 1) = (((x : ℝ) / 100 - 1 : ℝ) : ℂ) := by push_cast; rfl
    rw [hh, Complex.norm_real, Real.norm_eq_abs]
  have h100 : 100 ∈ studyM1 := by decide
  have hm : m ∈ studyM1 := by rw [hl]; simp
  have hle : e m ≤ e 100 := by
    have h := h100
    rw [hl] at h
    rcases List.mem_append.1 h with h | h
    · exact (hp _ h).le
    · rcases List.mem_cons.1 h with h | h
      · rw [h]
      · exact hq _ h
  rw [he _ h100, he _ hm] at hle
  have h0 : |(m : ℝ) / 100 - 1| = 0 := le_antisymm (hle.trans (by norm_num)) (abs_nonneg _)
  have hm100 : m = 100 := by
    have := abs_eq_zero.1 h0
    have h : (m : ℝ) = 100 := by linarith
    exact_mod_cast h
  subst hm100
  exact ⟨_, h3⟩

end Pot
