import Verif.Model.Imports
import Verif.Spec.Imports

/-!
# C101: which programs of the repository get past their imports

`problems/__init__.py:10-13` imports three files that are not in the checkout.
-/

namespace Pot
namespace Imports

/-- The modules named by a list of statements. -/
def named (ss : List Stmt) : List Mod :=
  ss.filterMap fun s => match s with
    | .imp m => some m
    | .frm m _ => some m
    | .dfn _ => none

/-- The modules named by the file of a module. -/
def depsOf (fs : Files) (m : Mod) : List Mod := named ((fs m).getD [])

/-! ### More fuel and more installed packages -/

/-- `a` stopped for lack of fuel (in the case `F`) or of an installed package, or it is the result `b`. -/
def Le (F : Prop) (a b : Except ImpErr St) : Prop :=
  (F ∧ a = .error .fuel) ∨ (∃ q, a = .error (.notInstalled q)) ∨ a = b

theorem Le.refl {F : Prop} (a : Except ImpErr St) : Le F a a := .inr (.inr rfl)

theorem le_fold {F : Prop} {α : Type} (f g : St → α → Except ImpErr St) (h : ∀ st s, Le F (f st s) (g st s)) :
    ∀ (l : List α) (st : St), Le F (l.foldlM f st) (l.foldlM g st)
  | [], st => Le.refl _
  | s :: l, st => by
    rw [List.foldlM_cons, List.foldlM_cons]
    rcases h st s with ⟨hF, e⟩ | ⟨q, e⟩ | e
    · rw [e]; exact .inl ⟨hF, rfl⟩
    · rw [e]; exact .inr (.inl ⟨q, rfl⟩)
    · rw [e]
      cases g st s with
      | error e' => exact Le.refl _
      | ok st' => exact le_fold f g h l st'

theorem le_loadOne {F : Prop} {l₁ l₂ : Mod → List Stmt → St → Except ImpErr St} {fs : Files} {i₁ i₂ : Mod → Bool}
    (hl : ∀ q b st, Le F (l₁ q b st) (l₂ q b st)) (hi : ∀ q, i₁ q = true → i₂ q = true) (st : St) (q : Mod) :
    Le F (loadOne l₁ fs i₁ st q) (loadOne l₂ fs i₂ st q) := by
  unfold loadOne
  by_cases hq : q ∈ st.loaded
  · rw [if_pos hq, if_pos hq]; exact Le.refl _
  · rw [if_neg hq, if_neg hq]
    cases fs q with
    | some body =>
      dsimp only
      rcases hl q body { st with loaded := q :: st.loaded } with ⟨hF, e⟩ | ⟨p, e⟩ | e
      · rw [e]; exact .inl ⟨hF, rfl⟩
      · rw [e]; exact .inr (.inl ⟨p, rfl⟩)
      · rw [e]; exact Le.refl _
    | none =>
      dsimp only
      by_cases hl : (fs (q.take 1)).isSome
      · rw [if_pos hl, if_pos hl]; exact Le.refl _
      · rw [if_neg hl, if_neg hl]
        by_cases h1 : i₁ q = true
        · rw [if_pos h1, if_pos (hi q h1)]; exact Le.refl _
        · rw [if_neg h1]; exact .inr (.inl ⟨q, rfl⟩)

theorem le_exec {F : Prop} {l₁ l₂ : Mod → List Stmt → St → Except ImpErr St} {fs : Files} {i₁ i₂ : Mod → Bool}
    (hl : ∀ q b st, Le F (l₁ q b st) (l₂ q b st)) (hi : ∀ q, i₁ q = true → i₂ q = true) (cur : Mod) (st : St) (s : Stmt) :
    Le F (exec l₁ fs i₁ cur st s) (exec l₂ fs i₂ cur st s) := by
  have hp : ∀ m, Le F (importPath l₁ fs i₁ m st) (importPath l₂ fs i₂ m st) := fun m =>
    le_fold _ _ (le_loadOne hl hi) _ _
  cases s with
  | imp m =>
    simp only [exec]
    rcases hp m with ⟨hF, e⟩ | ⟨p, e⟩ | e
    · rw [e]; exact .inl ⟨hF, rfl⟩
    · rw [e]; exact .inr (.inl ⟨p, rfl⟩)
    · rw [e]; exact Le.refl _
  | frm m names =>
    simp only [exec]
    rcases hp m with ⟨hF, e⟩ | ⟨p, e⟩ | e
    · rw [e]; exact .inl ⟨hF, rfl⟩
    · rw [e]; exact .inr (.inl ⟨p, rfl⟩)
    · rw [e]; exact Le.refl _
  | dfn names => exact Le.refl _

theorem le_run {fs : Files} {i₁ i₂ : Mod → Bool} (hi : ∀ q, i₁ q = true → i₂ q = true) :
    ∀ (n k : ℕ) (cur : Mod) (ss : List Stmt) (st : St), Le (k ≠ 0) (run fs i₁ n cur ss st) (run fs i₂ (n + k) cur ss st)
  | 0, 0, _, _, _ => .inr (.inr rfl)
  | 0, k + 1, _, _, _ => .inl ⟨Nat.succ_ne_zero k, rfl⟩
  | n + 1, k, cur, ss, st => by
    rw [Nat.add_right_comm n 1 k]
    exact le_fold _ _ (le_exec (fun q b st => le_run hi n k q b st) hi cur) ss st

theorem le_start (p : Prog) (fs : Files) {i₁ i₂ : Mod → Bool} (hi : ∀ q, i₁ q = true → i₂ q = true) {n m : ℕ}
    (h : n ≤ m) : Le (n ≠ m) (p.start fs i₁ n) (p.start fs i₂ m) := by
  obtain ⟨k, rfl⟩ := Nat.exists_eq_add_of_le h
  rcases le_run (fs := p.files fs) hi n k ["__main__"] p.imports { loaded := [], bound := [] } with ⟨hF, e⟩ | e
  · exact .inl ⟨by omega, e⟩
  · exact .inr e

/-! ### A run that succeeds has loaded everything that is needed -/

/-- What is loaded after the step: nothing is unloaded, and for a module that was not loaded before the modules named by
its file are loaded, and it is in the repository or installed. -/
def Step (fs : Files) (inst : Mod → Bool) (st st' : St) : Prop :=
  (∀ q ∈ st.loaded, q ∈ st'.loaded) ∧
  ∀ q ∈ st'.loaded, q ∉ st.loaded →
    ((fs q).isSome ∨ (fs (q.take 1) = none ∧ inst q = true)) ∧
    ∀ m ∈ depsOf fs q, ∀ r, r <+: m → r ≠ [] → r ∈ st'.loaded

theorem Step.refl (fs : Files) (inst : Mod → Bool) (st : St) : Step fs inst st st :=
  ⟨fun _ h => h, fun _ h h' => absurd h h'⟩

theorem Step.trans {fs : Files} {inst : Mod → Bool} {a b c : St} (h : Step fs inst a b) (h' : Step fs inst b c) :
    Step fs inst a c := by
  refine ⟨fun q hq => h'.1 q (h.1 q hq), fun q hq hqa => ?_⟩
  by_cases hb : q ∈ b.loaded
  · obtain ⟨h1, h2⟩ := h.2 q hb hqa
    exact ⟨h1, fun m hm r hr hne => h'.1 r (h2 m hm r hr hne)⟩
  · exact h'.2 q hq hb

theorem Step.congr {fs : Files} {inst : Mod → Bool} {a b c : St} (h : Step fs inst a b) (e : c.loaded = b.loaded) :
    Step fs inst a c := by
  unfold Step at h ⊢; rw [e]; exact h

/-- The loader runs the body of a module. -/
def GoodLoad (fs : Files) (inst : Mod → Bool) (load : Mod → List Stmt → St → Except ImpErr St) : Prop :=
  ∀ q b st st', load q b st = .ok st' →
    Step fs inst st st' ∧ ∀ m ∈ named b, ∀ r, r <+: m → r ≠ [] → r ∈ st'.loaded

theorem step_loadOne {fs : Files} {inst : Mod → Bool} {load : Mod → List Stmt → St → Except ImpErr St}
    (hg : GoodLoad fs inst load) {st st' : St} {q : Mod} (h : loadOne load fs inst st q = .ok st') :
    Step fs inst st st' ∧ q ∈ st'.loaded := by
  unfold loadOne at h
  by_cases hq : q ∈ st.loaded
  · rw [if_pos hq] at h; cases h; exact ⟨Step.refl _ _ _, hq⟩
  · rw [if_neg hq] at h
    cases hf : fs q with
    | some body =>
      rw [hf] at h; dsimp only at h
      cases hl : load q body { st with loaded := q :: st.loaded } with
      | error e => rw [hl] at h; cases h
      | ok s2 =>
        rw [hl] at h; cases h
        obtain ⟨hs, hn⟩ := hg _ _ _ _ hl
        have hqs : q ∈ s2.loaded := hs.1 q List.mem_cons_self
        refine ⟨⟨fun r hr => hs.1 r (List.mem_cons_of_mem _ hr), fun r hr hnr => ?_⟩, hqs⟩
        by_cases hrq : r = q
        · subst hrq
          refine ⟨.inl (by rw [hf]; rfl), ?_⟩
          have : depsOf fs r = named body := by unfold depsOf; rw [hf]; rfl
          rw [this]; exact hn
        · refine hs.2 r hr ?_
          intro hc
          rcases List.mem_cons.1 hc with e | e
          · exact hrq e
          · exact hnr e
    | none =>
      rw [hf] at h; dsimp only at h
      by_cases hl : (fs (q.take 1)).isSome
      · rw [if_pos hl] at h; cases h
      · rw [if_neg hl] at h
        by_cases hi : inst q = true
        · rw [if_pos hi] at h; cases h
          refine ⟨⟨fun r hr => List.mem_cons_of_mem _ hr, fun r hr hnr => ?_⟩, List.mem_cons_self⟩
          rcases List.mem_cons.1 hr with e | e
          · subst e
            refine ⟨.inr ⟨by simpa using hl, hi⟩, ?_⟩
            intro m hm
            have : depsOf fs r = [] := by unfold depsOf; rw [hf]; rfl
            rw [this] at hm; cases hm
          · exact absurd e hnr
        · rw [if_neg hi] at h; cases h

theorem step_fold {fs : Files} {inst : Mod → Bool} {load : Mod → List Stmt → St → Except ImpErr St}
    (hg : GoodLoad fs inst load) :
    ∀ (l : List Mod) (st st' : St), l.foldlM (loadOne load fs inst) st = .ok st' →
      Step fs inst st st' ∧ ∀ q ∈ l, q ∈ st'.loaded
  | [], st, st', h => by cases h; exact ⟨Step.refl _ _ _, fun _ h => by cases h⟩
  | q :: l, st, st', h => by
    rw [List.foldlM_cons] at h
    cases hq : loadOne load fs inst st q with
    | error e => rw [hq] at h; cases h
    | ok s2 =>
      rw [hq] at h
      obtain ⟨h1, h2⟩ := step_loadOne hg hq
      obtain ⟨h3, h4⟩ := step_fold hg l s2 st' h
      refine ⟨h1.trans h3, fun r hr => ?_⟩
      rcases List.mem_cons.1 hr with e | e
      · subst e; exact h3.1 _ h2
      · exact h4 r e

theorem mem_prefixes {m r : Mod} (h : r <+: m) (hne : r ≠ []) : r ∈ prefixes m := by
  have hl : 0 < r.length := List.length_pos_iff.2 hne
  have hle := h.length_le
  refine List.mem_map.2 ⟨r.length - 1, List.mem_range.2 (by omega), ?_⟩
  rw [Nat.sub_add_cancel hl]
  exact (List.prefix_iff_eq_take.1 h).symm

theorem step_exec {fs : Files} {inst : Mod → Bool} {load : Mod → List Stmt → St → Except ImpErr St}
    (hg : GoodLoad fs inst load) {cur : Mod} {st st' : St} {s : Stmt} (h : exec load fs inst cur st s = .ok st') :
    Step fs inst st st' ∧ ∀ m ∈ named [s], ∀ r, r <+: m → r ≠ [] → r ∈ st'.loaded := by
  cases s with
  | imp m =>
    simp only [exec] at h
    cases hp : importPath load fs inst m st with
    | error e => rw [hp] at h; cases h
    | ok s2 =>
      rw [hp] at h; cases h
      obtain ⟨h1, h2⟩ := step_fold hg _ _ _ hp
      refine ⟨h1.congr rfl, fun m' hm' r hr hne => ?_⟩
      have : m' = m := by simpa [named] using hm'
      subst this
      exact h2 r (mem_prefixes hr hne)
  | frm m names =>
    simp only [exec] at h
    cases hp : importPath load fs inst m st with
    | error e => rw [hp] at h; cases h
    | ok s2 =>
      rw [hp] at h; dsimp only at h
      cases hu : firstUnbound fs s2 m names with
      | some x => rw [hu] at h; cases h
      | none =>
        rw [hu] at h; cases h
        obtain ⟨h1, h2⟩ := step_fold hg _ _ _ hp
        refine ⟨h1.congr rfl, fun m' hm' r hr hne => ?_⟩
        have : m' = m := by simpa [named] using hm'
        subst this
        exact h2 r (mem_prefixes hr hne)
  | dfn names =>
    simp only [exec] at h; cases h
    exact ⟨(Step.refl _ _ _).congr rfl, fun m' hm' => by simp [named] at hm'⟩

theorem step_body {fs : Files} {inst : Mod → Bool} {load : Mod → List Stmt → St → Except ImpErr St}
    (hg : GoodLoad fs inst load) (cur : Mod) :
    ∀ (ss : List Stmt) (st st' : St), ss.foldlM (exec load fs inst cur) st = .ok st' →
      Step fs inst st st' ∧ ∀ m ∈ named ss, ∀ r, r <+: m → r ≠ [] → r ∈ st'.loaded
  | [], st, st', h => by cases h; exact ⟨Step.refl _ _ _, fun _ h => by cases h⟩
  | s :: ss, st, st', h => by
    rw [List.foldlM_cons] at h
    cases hq : exec load fs inst cur st s with
    | error e => rw [hq] at h; cases h
    | ok s2 =>
      rw [hq] at h
      obtain ⟨h1, h2⟩ := step_exec hg hq
      obtain ⟨h3, h4⟩ := step_body hg cur ss s2 st' h
      refine ⟨h1.trans h3, fun m hm r hr hne => ?_⟩
      have hsplit : named (s :: ss) = named [s] ++ named ss := by
        unfold named; rw [← List.filterMap_append]; rfl
      rw [hsplit] at hm
      rcases List.mem_append.1 hm with e | e
      · exact h3.1 _ (h2 m e r hr hne)
      · exact h4 m e r hr hne

theorem good_run (fs : Files) (inst : Mod → Bool) : ∀ n, GoodLoad fs inst (run fs inst n)
  | 0 => fun q b st st' h => by cases h
  | n + 1 => fun q b st st' h => step_body (good_run fs inst n) q b st st' h

theorem needs_loaded {fs : Files} {inst : Mod → Bool} {st : St} (h0 : st.loaded = []) {st' : St}
    (hs : Step fs inst st st') {direct : List Mod} {q : Mod} (h : Spec.Needs (depsOf fs) direct q) :
    (∀ m ∈ direct, ∀ r, r <+: m → r ≠ [] → r ∈ st'.loaded) → q ∈ st'.loaded := by
  induction h with
  | here hm hq hne => intro hd; exact hd _ hm _ hq hne
  | @there direct m q _ _ ih1 ih2 =>
    intro hd
    refine ih2 fun m' hm' r hr hne => ?_
    exact (hs.2 m (ih1 hd) (by rw [h0]; simp)).2 m' hm' r hr hne

/-- **C101.** For all files, programs and installed packages: when the imports of a program succeed, every module that it
needs, directly or through the files that it imports, is a file of the repository or is installed. -/
theorem C101_closed (fs : Files) (inst : Mod → Bool) (n : ℕ) (cur : Mod) (ss : List Stmt) (b : List (Mod × String))
    (st' : St) (h : run fs inst n cur ss { loaded := [], bound := b } = .ok st') (q : Mod)
    (hq : Spec.Needs (depsOf fs) (named ss) q) :
    (fs q).isSome ∨ (fs (q.take 1) = none ∧ inst q = true) := by
  obtain ⟨h1, h2⟩ := good_run fs inst n _ _ _ _ h
  have hm := needs_loaded rfl h1 hq h2
  exact (h1.2 q hm (by simp)).1

/-- `run.py:6` imports `problems`, whose file names `problems.sing_h_trace`, of which there is no file: the imports of
`run.py` cannot succeed. -/
example (inst : Mod → Bool) (n : ℕ) (st' : St) :
    run repoFiles inst n ["__main__"] prog_run { loaded := [], bound := [] } ≠ .ok st' := by
  intro h
  have hq : Spec.Needs (depsOf repoFiles) (named prog_run) ["problems", "sing_h_trace"] :=
    .there (m := ["problems"]) (.here (m := ["problems"]) (by decide +kernel) (List.prefix_refl _) (by decide))
      (.here (m := ["problems", "sing_h_trace"]) (by decide +kernel) (List.prefix_refl _) (by decide))
  have := C101_closed _ _ _ _ _ _ _ h _ hq
  have h1 : (repoFiles ["problems", "sing_h_trace"]).isSome = false := by decide +kernel
  have h2 : (repoFiles ["problems"]).isSome = true := by decide +kernel
  rcases this with h | ⟨h, _⟩
  · rw [h1] at h; cases h
  · rw [show (["problems", "sing_h_trace"] : Mod).take 1 = ["problems"] from rfl] at h
    rw [h] at h2; cases h2

/-- The unit tests: `numpy`, `unittest`, `ps` and `ps.multivalue` are loaded. -/
example : run repoFiles (fun _ => true) 3 ["__main__"] prog_test_ps_test_multivalue { loaded := [], bound := [] } =
    .ok { loaded := [["ps", "multivalue"], ["ps"], ["numpy"], ["unittest"]],
          bound := [(["__main__"], "Multivalue"), (["ps"], "multivalue"), (["ps", "multivalue"], "Multivalue"),
            (["ps", "multivalue"], "numpy"), ([], "ps"), (["__main__"], "numpy"), (["__main__"], "unittest")] } := by
  decide +kernel

/-! ### The programs of the repository -/

/-- The packages that `required` lists. -/
def std (q : Mod) : Bool := decide (q ∈ Spec.required)

theorem stopped_all : ∀ p ∈ programs, p.file ∈ Spec.stopped →
    p.start repoFiles std 12 = .error (.noFile ["problems", "sing_h_trace"]) := by
  decide +kernel

/-- A result that is not for lack of fuel or of a package stays with more fuel and more packages. -/
theorem start_more (p : Prog) (fs : Files) {i₁ i₂ : Mod → Bool} (hi : ∀ q, i₁ q = true → i₂ q = true) {n m : ℕ}
    (h : n ≤ m) {r : Except ImpErr St} (hr : p.start fs i₁ n = r) (h1 : r ≠ .error .fuel)
    (h2 : ∀ q, r ≠ .error (.notInstalled q)) : p.start fs i₂ m = r := by
  rcases le_start p fs hi h with ⟨_, e⟩ | ⟨q, e⟩ | e
  · exact absurd (hr.symm.trans e) h1
  · exact absurd (hr.symm.trans e) (h2 q)
  · exact e.symm.trans hr

/-- **C101.** With the required packages installed (and any others), fifteen programs, `run.py` and `runz.py` among them,
stop at `problems/__init__.py:10`: the module `problems.sing_h_trace` is not in the repository. -/
theorem C101_outcome (inst : Mod → Bool) (hi : ∀ q ∈ Spec.required, inst q = true) (n : ℕ) (hn : 12 ≤ n) (p : Prog)
    (hp : p ∈ programs) (hs : p.file ∈ Spec.stopped) :
    p.start repoFiles inst n = .error (.noFile ["problems", "sing_h_trace"]) :=
  start_more p repoFiles (i₁ := std) (fun q hq => hi q (of_decide_eq_true hq)) hn (stopped_all p hp hs) (by decide)
    (by intro q h; cases h)

/-- **C101.** Whatever is installed, they do not get past their imports: they stop with `ModuleNotFoundError`, for
`problems.sing_h_trace` or for a package that is not installed. -/
theorem C101_stops (inst : Mod → Bool) (n : ℕ) (hn : 12 ≤ n) (p : Prog) (hp : p ∈ programs) (hs : p.file ∈ Spec.stopped) :
    p.start repoFiles inst n = .error (.noFile ["problems", "sing_h_trace"]) ∨
      ∃ q, p.start repoFiles inst n = .error (.notInstalled q) := by
  rcases le_start p repoFiles (i₁ := inst) (i₂ := fun _ => true) (fun _ _ => rfl) (Nat.le_refl n) with ⟨h, _⟩ | f | f
  · exact absurd rfl h
  · exact .inr f
  · rw [f]
    exact .inl (C101_outcome (fun _ => true) (fun _ _ => rfl) n hn p hp hs)

theorem fine_all : ∀ p ∈ programs, p.file ∉ Spec.stopped → p.file ≠ "scripts/abcoef/k_test.py" →
    p.file ≠ "scripts/abcoef/generate_report4.py" → (p.start repoFiles std 12).isOk = true := by
  decide +kernel

theorem isOk_iff {r : Except ImpErr St} : r.isOk = true ↔ ∃ st, r = .ok st := by
  cases r with
  | error e => simp [Except.isOk, Except.toBool]
  | ok st => simp [Except.isOk, Except.toBool]

/-- **C101.** With the required packages installed, the other programs get past their imports, except for two. -/
theorem C101_fine (inst : Mod → Bool) (hi : ∀ q ∈ Spec.required, inst q = true) (n : ℕ) (hn : 12 ≤ n) (p : Prog)
    (hp : p ∈ programs) (hs : p.file ∉ Spec.stopped) (h1 : p.file ≠ "scripts/abcoef/k_test.py")
    (h2 : p.file ≠ "scripts/abcoef/generate_report4.py") : ∃ st, p.start repoFiles inst n = .ok st := by
  obtain ⟨st, h⟩ := isOk_iff.1 (fine_all p hp hs h1 h2)
  exact ⟨st, start_more p repoFiles (i₁ := std) (fun q hq => hi q (of_decide_eq_true hq)) hn h (by intro h; cases h)
    (by intro q h; cases h)⟩

/-- **C101.** The first exception: `scripts/abcoef/k_test.py` appends the wrong directory to the search path and does not
find `io_util`, unless a package of that name is installed … -/
theorem C101_k_test (inst : Mod → Bool) (hio : inst ["io_util"] = false) (fs : Files) (n : ℕ) (p : Prog)
    (hp : p ∈ programs) (hk : p.file = "scripts/abcoef/k_test.py") : ∀ st, p.start fs inst n ≠ .ok st := by
  have hall : ∀ p ∈ programs, p.file = "scripts/abcoef/k_test.py" → p.root = false ∧ ["io_util"] ∈ named p.imports := by
    decide +kernel
  obtain ⟨hr, hm⟩ := hall p hp hk
  intro st h
  have hf : p.files fs = fun _ => none := by unfold Prog.files; rw [hr]; rfl
  unfold Prog.start at h
  rw [hf] at h
  have := C101_closed _ inst n _ _ _ _ h ["io_util"] (.here hm (List.prefix_refl _) (by decide))
  rcases this with h | ⟨_, h⟩
  · cases h
  · rw [hio] at h; cases h

/-- **C101.** … and the second: `scripts/abcoef/generate_report4.py` needs `seaborn`, which requirements.txt does not
list. -/
theorem C101_seaborn (inst : Mod → Bool) (hio : inst ["seaborn"] = false) (fs : Files) (n : ℕ) (p : Prog)
    (hp : p ∈ programs) (hk : p.file = "scripts/abcoef/generate_report4.py") : ∀ st, p.start fs inst n ≠ .ok st := by
  have hall : ∀ p ∈ programs, p.file = "scripts/abcoef/generate_report4.py" → p.root = false ∧ ["seaborn"] ∈ named p.imports := by
    decide +kernel
  obtain ⟨hr, hm⟩ := hall p hp hk
  intro st h
  have hf : p.files fs = fun _ => none := by unfold Prog.files; rw [hr]; rfl
  unfold Prog.start at h
  rw [hf] at h
  have := C101_closed _ inst n _ _ _ _ h ["seaborn"] (.here hm (List.prefix_refl _) (by decide))
  rcases this with h | ⟨_, h⟩
  · cases h
  · rw [hio] at h; cases h

/-! ### With the missing files -/

/-- The checkout with the three missing files, which define the names that `problems/__init__.py:10-13` asks for. -/
def repaired : Files := fun m =>
  if m = ["problems", "sing_h_trace"] then
    some [.dfn ["Trace_Hat", "Trace_Parabola", "Trace_Sine8", "Trace_SineRange", "Trace_LineSine"]]
  else if m = ["problems", "sing_h_shift"] then some [.dfn ["Shift_Hat", "Shift_Parabola", "Shift_LineSine"]]
  else if m = ["problems", "sing_ih"] then some [.dfn ["I_Bessel"]]
  else repoFiles m

theorem repaired_all : ∀ p ∈ programs, p.file ∈ Spec.stopped → p.file ≠ "scripts/zmethod/interp_test.py" →
    (p.start repaired std 12).isOk = true := by
  decide +kernel

/-- **C101.** With the missing files in place, fourteen of the fifteen programs get past their imports: the circular
imports among `abcoef`, `problems` and `ps` do no harm to them. -/
theorem C101_repaired (inst : Mod → Bool) (hi : ∀ q ∈ Spec.required, inst q = true) (n : ℕ) (hn : 12 ≤ n) (p : Prog)
    (hp : p ∈ programs) (hs : p.file ∈ Spec.stopped) (h1 : p.file ≠ "scripts/zmethod/interp_test.py") :
    ∃ st, p.start repaired inst n = .ok st := by
  obtain ⟨st, h⟩ := isOk_iff.1 (repaired_all p hp hs h1)
  exact ⟨st, start_more p repaired (i₁ := std) (fun q hq => hi q (of_decide_eq_true hq)) hn h (by intro h; cases h)
    (by intro q h; cases h)⟩

/-- **C101.** … but not the fifteenth: `scripts/zmethod/interp_test.py:9` starts with `from ps.zmethod import ZMethod`; the
first import of `ps/zmethod.py` leads through `problems/__init__.py` to `problems/sing_ihz.py:14`, which asks `ps.zmethod`
for `ZMethod` before `ps/zmethod.py` has come to define it. -/
theorem C101_circular (inst : Mod → Bool) (hi : ∀ q ∈ Spec.required, inst q = true) (n : ℕ) (hn : 12 ≤ n) (p : Prog)
    (hp : p ∈ programs) (hs : p.file = "scripts/zmethod/interp_test.py") :
    p.start repaired inst n = .error (.cannotImport ["ps", "zmethod"] "ZMethod") := by
  have hall : ∀ p ∈ programs, p.file = "scripts/zmethod/interp_test.py" →
      p.start repaired std 12 = .error (.cannotImport ["ps", "zmethod"] "ZMethod") := by decide +kernel
  exact start_more p repaired (i₁ := std) (fun q hq => hi q (of_decide_eq_true hq)) hn (hall p hp hs) (by decide)
    (by intro q h; cases h)

/-- There are 29 programs; the fifteen, the two exceptions and twelve more. -/
example : programs.length = 29 ∧ (programs.filter fun p => p.file ∈ Spec.stopped).length = 15 ∧
    (∃ p ∈ programs, p.file = "scripts/abcoef/k_test.py") ∧ (∃ p ∈ programs, p.file = "scripts/zmethod/interp_test.py") ∧
    ∃ p ∈ programs, p.file = "scripts/abcoef/generate_report4.py" := by decide +kernel

/-- The hypotheses on what is installed can be met together. -/
example : (∀ q ∈ Spec.required, std q = true) ∧ std ["io_util"] = false ∧ std ["seaborn"] = false := by decide +kernel

end Imports
end Pot
