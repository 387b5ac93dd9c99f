import Verif.Model.Calls

/-!
# Lemmas for C117

The interpreter's matching of arguments with parameters in closed form, and a check of the table of calls whose success implies that every
chain of calls passes arguments that fit.
-/

namespace Pot
namespace Calls

variable {V : Type}

/-! ## Keyword arguments -/

/-- the keyword arguments that name a parameter -/
def named (s : Sig) (kw : List (ℕ × V)) : List (ℕ × V) := kw.filter fun e => decide (e.1 ∈ s.params)

/-- the other keyword arguments -/
def others (s : Sig) (kw : List (ℕ × V)) : List (ℕ × V) := kw.filter fun e => decide (e.1 ∉ s.params)

theorem bindKw_ok (s : Sig) : ∀ (kw : List (ℕ × V)) (fr : Frame V), (kw.map Prod.fst).Nodup →
    (∀ k ∈ kw.map Prod.fst, k ∉ fr.loc.map Prod.fst ∧ (k ∈ s.params ∨ s.kwarg = true)) →
    bindKw s fr kw = .ok ⟨fr.loc ++ named s kw, fr.rest, fr.extra ++ others s kw⟩
  | [], fr, _, _ => by simp [bindKw, named, others]
  | (k, v) :: l, fr, hn, h => by
    have hk := h k (by simp)
    rw [List.map_cons, List.nodup_cons] at hn
    rw [bindKw, if_neg hk.1]
    by_cases hp : k ∈ s.params
    · rw [if_pos hp, bindKw_ok s l _ hn.2]
      · simp [named, others, hp]
      · intro k' hk'
        have h' := h k' (by simp only [List.map_cons, List.mem_cons]; exact Or.inr hk')
        refine ⟨?_, h'.2⟩
        rw [List.map_append, List.mem_append, not_or]
        refine ⟨h'.1, ?_⟩
        simp only [List.map_cons, List.map_nil, List.mem_singleton]
        rintro rfl
        exact hn.1 hk'
    · have hkw : s.kwarg = true := hk.2.resolve_left hp
      rw [if_neg hp, if_pos hkw, bindKw_ok s l _ hn.2]
      · simp [named, others, hp]
      · intro k' hk'
        exact h k' (by simp only [List.map_cons, List.mem_cons]; exact Or.inr hk')

theorem bindKw_inv (s : Sig) : ∀ (kw : List (ℕ × V)) (fr fr' : Frame V), bindKw s fr kw = .ok fr' →
    ∀ k ∈ kw.map Prod.fst, k ∉ fr.loc.map Prod.fst ∧ (k ∈ s.params ∨ s.kwarg = true)
  | [], _, _, _ => by simp
  | (k, v) :: l, fr, fr', h => by
    rw [bindKw] at h
    split_ifs at h with h1 h2 h3
    · intro k' hk'
      rcases List.mem_cons.1 hk' with rfl | hk'
      · exact ⟨h1, Or.inl h2⟩
      · have := bindKw_inv s l _ fr' h k' hk'
        refine ⟨fun hc => this.1 ?_, this.2⟩
        rw [List.map_append, List.mem_append]
        exact Or.inl hc
    · intro k' hk'
      rcases List.mem_cons.1 hk' with rfl | hk'
      · exact ⟨h1, Or.inr h3⟩
      · exact bindKw_inv s l _ fr' h k' hk'

/-! ## All arguments -/

/-- the conditions under which arguments fit a signature -/
structure Fits (s : Sig) (n : ℕ) (ks : List ℕ) : Prop where
  count : n ≤ s.params.length ∨ s.vararg = true
  nodup : ks.Nodup
  known : ∀ k ∈ ks, k ∈ s.params.drop n ∨ (k ∉ s.params ∧ s.kwarg = true)
  full : ∀ p ∈ (s.params.take s.req).drop n, p ∈ ks

theorem zip_fst (ps : List ℕ) (args : List V) : (ps.zip args).map Prod.fst = ps.take args.length := by
  induction ps generalizing args with
  | nil => simp
  | cons p l ih => cases args with
    | nil => simp
    | cons a m => simp [ih]

theorem mem_take_or_drop {ps : List ℕ} {k : ℕ} (n : ℕ) (h : k ∈ ps) : k ∈ ps.take n ∨ k ∈ ps.drop n := by
  rw [← List.mem_append, List.take_append_drop]
  exact h

theorem not_both {ps : List ℕ} (h : ps.Nodup) {k n : ℕ} (h1 : k ∈ ps.take n) : k ∉ ps.drop n := by
  rw [← List.take_append_drop n ps, List.nodup_append] at h
  exact fun h2 => h.2.2 k h1 k h2 rfl

theorem mem_named_fst {s : Sig} {kw : List (ℕ × V)} {k : ℕ} :
    k ∈ (named s kw).map Prod.fst ↔ k ∈ kw.map Prod.fst ∧ k ∈ s.params := by
  simp [named]

/-- the required parameters that no positional argument reaches -/
theorem mem_req_drop {s : Sig} (hs : s.params.Nodup) {n p : ℕ} :
    p ∈ (s.params.take s.req).drop n ↔ p ∈ s.params.take s.req ∧ p ∉ s.params.take n := by
  constructor
  · intro h
    refine ⟨List.mem_of_mem_drop h, fun hc => ?_⟩
    refine not_both hs hc ?_
    rw [List.drop_take] at h
    exact List.mem_of_mem_take h
  · rintro ⟨h1, h2⟩
    rcases mem_take_or_drop n h1 with h | h
    · rw [List.take_take] at h
      exact absurd ((List.take_prefix_take_left (Nat.min_le_left n s.req)).subset h) h2
    · exact h

theorem bind_ok {s : Sig} (hs : s.params.Nodup) {args : List V} {kw : List (ℕ × V)}
    (h : Fits s args.length (kw.map Prod.fst)) :
    bind s args kw = .ok ⟨s.params.zip args ++ named s kw, args.drop s.params.length, others s kw⟩ := by
  rw [bind, if_pos h.nodup, bindKw_ok s kw _ h.nodup]
  · simp only [List.nil_append]
    rw [finish, if_neg]
    · rw [List.find?_eq_none.2]
      intro p hp
      simp only [decide_eq_true_eq, not_not]
      rw [List.map_append, List.mem_append, zip_fst]
      by_cases hc : p ∈ s.params.take args.length
      · exact Or.inl hc
      · exact Or.inr (mem_named_fst.2 ⟨h.full p ((mem_req_drop hs).2 ⟨hp, hc⟩), List.mem_of_mem_take hp⟩)
    · rintro ⟨h1, h2⟩
      rcases h.count with h3 | h3
      · omega
      · rw [h3] at h2; exact Bool.noConfusion h2
  · intro k hk
    rw [zip_fst]
    rcases h.known k hk with h1 | ⟨h1, h2⟩
    · exact ⟨fun hc => not_both hs hc h1, Or.inl (List.mem_of_mem_drop h1)⟩
    · exact ⟨fun hc => h1 (List.mem_of_mem_take hc), Or.inr h2⟩

theorem bind_inv {s : Sig} (hs : s.params.Nodup) {args : List V} {kw : List (ℕ × V)} {F : Frame V}
    (h : bind s args kw = .ok F) : Fits s args.length (kw.map Prod.fst) := by
  rw [bind] at h
  split_ifs at h with hn
  cases hb : bindKw s (⟨s.params.zip args, args.drop s.params.length, []⟩ : Frame V) kw with
  | error e => rw [hb] at h; exact absurd h (by simp)
  | ok fr =>
    rw [hb] at h
    have hi := bindKw_inv s kw _ fr hb
    have he := bindKw_ok s kw _ hn hi
    rw [hb] at he
    have he : fr = _ := Except.ok.inj he
    simp only at h
    rw [finish] at h
    split_ifs at h with hc
    split at h
    · exact absurd h (by simp)
    · rename_i hf
      rw [List.find?_eq_none] at hf
      refine ⟨?_, hn, ?_, ?_⟩
      · by_cases hv : s.vararg = true
        · exact Or.inr hv
        · left
          by_contra hl
          exact hc ⟨by omega, by simpa using hv⟩
      · intro k hk
        have := hi k hk
        rw [zip_fst] at this
        by_cases hp : k ∈ s.params
        · exact Or.inl ((mem_take_or_drop args.length hp).resolve_left this.1)
        · exact Or.inr ⟨hp, this.2.resolve_left hp⟩
      · intro p hp
        obtain ⟨hp1, hp2⟩ := (mem_req_drop hs).1 hp
        have := hf p hp1
        simp only [decide_eq_true_eq, not_not] at this
        rw [he, List.map_append, List.mem_append, zip_fst] at this
        exact (mem_named_fst.1 (this.resolve_left hp2)).1

/-! ## The check of the calls -/

/-- bounds of the keys of the `kwargs` of a function: those always there and those possible -/
structure Bound where
  fn : ℕ
  lo : List ℕ
  hi : List ℕ

/-- the bounds of all functions that get keywords beyond their parameters -/
def bounds : List Bound := [
  ⟨17, [Key.curv, Key.d2_curv_th, Key.d2_th_s, Key.d2_xi0_th, Key.d2_xi1_th, Key.d3_th_s, Key.d3_xi0_th, Key.d4_th_s, Key.d4_xi0_th, Key.d_curv_th, Key.d_th_s, Key.d_xi0_th, Key.d_xi1_th, Key.n, Key.xi0, Key.xi1], [Key.curv, Key.d2_curv_th, Key.d2_th_s, Key.d2_xi0_th, Key.d2_xi1_th, Key.d3_th_s, Key.d3_xi0_th, Key.d4_th_s, Key.d4_xi0_th, Key.d_curv_th, Key.d_th_s, Key.d_xi0_th, Key.d_xi1_th, Key.n, Key.xi0, Key.xi1]⟩,
  ⟨21, [Key.curv, Key.d2_curv_s, Key.d2_xi0_s, Key.d2_xi1_s, Key.d4_xi0_s, Key.d_curv_s, Key.d_xi0_s, Key.d_xi1_s, Key.n, Key.xi0, Key.xi1], [Key.curv, Key.d2_curv_s, Key.d2_xi0_s, Key.d2_xi1_s, Key.d4_xi0_s, Key.d_curv_s, Key.d_xi0_s, Key.d_xi1_s, Key.n, Key.xi0, Key.xi1]⟩,
  ⟨22, [Key.curv, Key.d2_f_n, Key.d2_f_r, Key.d2_f_r_th, Key.d2_f_th, Key.d2_r_th, Key.d2_th_s, Key.d_f_n, Key.d_f_r, Key.d_f_th, Key.d_r_th, Key.d_th_s, Key.f, Key.n], [Key.curv, Key.d2_f_n, Key.d2_f_r, Key.d2_f_r_th, Key.d2_f_th, Key.d2_r_th, Key.d2_th_s, Key.d_f_n, Key.d_f_r, Key.d_f_th, Key.d_r_th, Key.d_th_s, Key.f, Key.n]⟩,
  ⟨23, [Key.curv, Key.d2_f_n, Key.d2_f_s, Key.d_f_n, Key.f, Key.n], [Key.curv, Key.d2_f_n, Key.d2_f_s, Key.d_f_n, Key.f, Key.n]⟩,
  ⟨51, [], [Key.scheme_order]⟩,
  ⟨52, [], [Key.scheme_order]⟩,
  ⟨114, [Key.d2_xi0_arg, Key.d2_xi1_arg, Key.d4_xi0_arg, Key.d_xi0_arg, Key.d_xi1_arg, Key.n, Key.xi0, Key.xi1], [Key.d2_xi0_arg, Key.d2_xi1_arg, Key.d3_xi0_arg, Key.d3_xi1_arg, Key.d4_xi0_arg, Key.d4_xi1_arg, Key.d_xi0_arg, Key.d_xi1_arg, Key.n, Key.xi0, Key.xi1]⟩,
  ⟨115, [Key.JJ, Key.basis_index], [Key.JJ, Key.basis_index]⟩,
  ⟨116, [Key.JJ, Key.basis_index], [Key.JJ, Key.basis_index]⟩,
  ⟨117, [Key.JJ, Key.basis_index], [Key.JJ, Key.basis_index]⟩,
  ⟨119, [Key.JJ, Key.basis_index], [Key.JJ, Key.basis_index]⟩,
  ⟨120, [Key.JJ, Key.basis_index], [Key.JJ, Key.basis_index]⟩,
  ⟨121, [Key.JJ, Key.basis_index], [Key.JJ, Key.basis_index]⟩,
  ⟨122, [Key.JJ, Key.basis_index], [Key.JJ, Key.basis_index]⟩,
  ⟨123, [Key.JJ, Key.basis_index], [Key.JJ, Key.basis_index]⟩,
  ⟨124, [Key.JJ, Key.basis_index], [Key.JJ, Key.basis_index]⟩,
  ⟨125, [Key.JJ, Key.basis_index], [Key.JJ, Key.basis_index]⟩,
  ⟨126, [Key.JJ, Key.basis_index], [Key.JJ, Key.basis_index]⟩,
  ⟨127, [Key.JJ, Key.basis_index], [Key.JJ, Key.basis_index]⟩,
  ⟨129, [], [Key.JJ, Key.basis_index, Key.homogeneous_only]⟩]

/-- the keys that are always there -/
def lo (f : ℕ) : List ℕ := ((bounds.find? fun b => b.fn == f).map Bound.lo).getD []

/-- the keys that are possible -/
def hi (f : ℕ) : List ℕ := ((bounds.find? fun b => b.fn == f).map Bound.hi).getD []

/-- membership as a Boolean -/
def mem (k : ℕ) : List ℕ → Bool
  | [] => false
  | a :: l => Nat.beq k a || mem k l

theorem mem_iff {k : ℕ} {l : List ℕ} : mem k l = true ↔ k ∈ l := by
  induction l with
  | nil => simp [mem]
  | cons a l ih => simp [mem, ih]

/-- whether no element is repeated -/
def nodupB : List ℕ → Bool
  | [] => true
  | a :: l => !mem a l && nodupB l

theorem nodupB_iff {l : List ℕ} : nodupB l = true ↔ l.Nodup := by
  induction l with
  | nil => simp [nodupB]
  | cons a l ih => simp [nodupB, ih, ← mem_iff]

/-- the keys of the `kwargs` that a call passes on, given those of the caller -/
def passedKeys (c : Call) (b : ℕ → List ℕ) : List ℕ :=
  match c.fwd, c.caller with
  | true, some g => (b g).filter fun k => !mem k c.drop
  | _, _ => []

/-- the check of one target of a call -/
def checkTarget (c : Call) (t : ℕ) : Bool :=
  match fns[t]? with
  | none => false
  | some f =>
    (Nat.ble c.npos f.sig.params.length || f.sig.vararg) &&
    nodupB (c.kws ++ passedKeys c hi) &&
    (c.kws ++ passedKeys c hi).all (fun k => mem k (f.sig.params.drop c.npos) || (!mem k f.sig.params && f.sig.kwarg)) &&
    ((f.sig.params.take f.sig.req).drop c.npos).all (fun p => mem p (c.kws ++ passedKeys c lo)) &&
    (c.kws ++ passedKeys c hi).all (fun k => mem k f.sig.params || mem k (hi t)) &&
    (lo t).all (fun k => mem k (c.kws ++ passedKeys c lo) && !mem k f.sig.params)

/-- the check of a call -/
def checkCall (c : Call) : Bool := (!c.fwd || c.caller.isSome) && c.targets.all (checkTarget c)

/-- the check of a function -/
def checkFn (i : ℕ) (f : Fn) : Bool := nodupB f.sig.params && f.needs.all fun k => mem k (lo i)

/-- the check of all functions -/
def checkFns : ℕ → List Fn → Bool
  | _, [] => true
  | i, f :: l => checkFn i f && checkFns (i + 1) l

theorem checkFns_get : ∀ (l : List Fn) (i t : ℕ) (f : Fn), checkFns i l = true → l[t]? = some f → checkFn (i + t) f = true
  | [], _, _, _, _, h => by simp at h
  | g :: l, i, 0, f, hc, h => by
    rw [checkFns, Bool.and_eq_true] at hc
    simp only [List.getElem?_cons_zero, Option.some.injEq] at h
    rw [← h]; exact hc.1
  | g :: l, i, t + 1, f, hc, h => by
    rw [checkFns, Bool.and_eq_true] at hc
    rw [List.getElem?_cons_succ] at h
    have := checkFns_get l (i + 1) t f hc.2 h
    rwa [show i + (t + 1) = i + 1 + t by omega]

/-- the keys of `kwargs` are between the bounds -/
structure Within (t : ℕ) (E : List (ℕ × V)) : Prop where
  nodup : (E.map Prod.fst).Nodup
  lower : ∀ k ∈ lo t, k ∈ E.map Prod.fst
  upper : ∀ k ∈ E.map Prod.fst, k ∈ hi t

theorem mem_passedOn {c : Call} {E : List (ℕ × V)} {k : ℕ} :
    k ∈ (passedOn c E).map Prod.fst ↔ k ∈ E.map Prod.fst ∧ k ∉ c.drop := by
  simp [passedOn]

theorem mem_others_fst {s : Sig} {kw : List (ℕ × V)} {k : ℕ} :
    k ∈ (others s kw).map Prod.fst ↔ k ∈ kw.map Prod.fst ∧ k ∉ s.params := by
  simp [others]

theorem filter_fst_nodup {E : List (ℕ × V)} (p : ℕ × V → Bool) (h : (E.map Prod.fst).Nodup) :
    ((E.filter p).map Prod.fst).Nodup :=
  h.sublist (List.Sublist.map _ List.filter_sublist)

/-- from the check of a target: the arguments fit, and the `kwargs` are between the bounds -/
theorem target_sound {c : Call} {t : ℕ} {f : Fn} (hc : checkTarget c t = true) (hf : fns[t]? = some f)
    {ks : List ℕ} (hn : ks.Nodup) (hlo : ∀ k ∈ c.kws ++ passedKeys c lo, k ∈ ks) (hhi : ∀ k ∈ ks, k ∈ c.kws ++ passedKeys c hi) :
    Fits f.sig c.npos ks ∧ (∀ k ∈ lo t, k ∈ ks ∧ k ∉ f.sig.params) ∧ (∀ k ∈ ks, k ∈ f.sig.params ∨ k ∈ hi t) := by
  rw [checkTarget, hf] at hc
  simp only [Bool.and_eq_true, Bool.or_eq_true, List.all_eq_true, mem_iff, Bool.not_eq_true', nodupB_iff] at hc
  obtain ⟨⟨⟨⟨⟨h1, _⟩, h3⟩, h4⟩, h5⟩, h6⟩ := hc
  refine ⟨⟨?_, hn, ?_, ?_⟩, ?_, ?_⟩
  · exact h1.imp Nat.le_of_ble_eq_true id
  · intro k hk
    refine (h3 k (hhi k hk)).imp id fun h => ⟨fun hc => ?_, h.2⟩
    rw [← mem_iff, h.1] at hc; exact Bool.noConfusion hc
  · exact fun p hp => hlo p (h4 p hp)
  · refine fun k hk => ⟨hlo k (h6 k hk).1, fun hc => ?_⟩
    rw [← mem_iff, (h6 k hk).2] at hc; exact Bool.noConfusion hc
  · exact fun k hk => h5 k (hhi k hk)

/-- the keys of a call that passes on `kwargs` -/
theorem forward_keys {c : Call} {g t : ℕ} (hc : checkTarget c t = true) (h1 : c.fwd = true) (h2 : c.caller = some g)
    {kw E : List (ℕ × V)} (hE : Within g E) (hk : kw.map Prod.fst = c.kws) :
    ((kw ++ passedOn c E).map Prod.fst).Nodup ∧
    (∀ k ∈ c.kws ++ passedKeys c lo, k ∈ (kw ++ passedOn c E).map Prod.fst) ∧
    (∀ k ∈ (kw ++ passedOn c E).map Prod.fst, k ∈ c.kws ++ passedKeys c hi) := by
  have hp : ∀ b, passedKeys c b = (b g).filter fun k => !mem k c.drop := fun b => by rw [passedKeys, h1, h2]
  have hm : ∀ b k, k ∈ passedKeys c b ↔ k ∈ b g ∧ k ∉ c.drop := fun b k => by
    rw [hp, List.mem_filter, ← mem_iff (l := c.drop)]; simp
  have hup : ∀ k ∈ (passedOn c E).map Prod.fst, k ∈ passedKeys c hi := fun k hk => by
    rw [mem_passedOn] at hk
    exact (hm _ _).2 ⟨hE.upper k hk.1, hk.2⟩
  rw [List.map_append, hk]
  refine ⟨?_, ?_, ?_⟩
  · have hn : (c.kws ++ passedKeys c hi).Nodup := by
      rw [checkTarget] at hc
      split at hc
      · exact Bool.noConfusion hc
      · simp only [Bool.and_eq_true, nodupB_iff] at hc
        exact hc.1.1.1.1.2
    rw [List.nodup_append] at hn ⊢
    exact ⟨hn.1, filter_fst_nodup _ hE.nodup, fun a ha b hb => hn.2.2 a ha b (hup b hb)⟩
  · intro k h
    rw [List.mem_append] at h ⊢
    refine h.imp id fun h => ?_
    rw [hm] at h
    exact mem_passedOn.2 ⟨hE.lower k h.1, h.2⟩
  · intro k h
    rw [List.mem_append] at h ⊢
    exact h.imp id (hup k)

/-- the keys of a call that passes on nothing -/
theorem plain_keys {c : Call} {t : ℕ} (hc : checkTarget c t = true) (h1 : c.fwd = false) :
    c.kws.Nodup ∧ (∀ k ∈ c.kws ++ passedKeys c lo, k ∈ c.kws) ∧ (∀ k ∈ c.kws, k ∈ c.kws ++ passedKeys c hi) := by
  have hp : ∀ b, passedKeys c b = [] := fun b => by rw [passedKeys, h1]
  refine ⟨?_, by simp [hp], by simp [hp]⟩
  rw [checkTarget] at hc
  split at hc
  · exact Bool.noConfusion hc
  · simp only [Bool.and_eq_true, nodupB_iff, hp, List.append_nil] at hc
    exact hc.1.1.1.1.2

theorem within_of {s : Sig} (hs : s.params.Nodup) {t : ℕ} {args : List V} {kw : List (ℕ × V)} {F : Frame V}
    (hb : bind s args kw = .ok F) (h1 : ∀ k ∈ lo t, k ∈ kw.map Prod.fst ∧ k ∉ s.params)
    (h2 : ∀ k ∈ kw.map Prod.fst, k ∈ s.params ∨ k ∈ hi t) : Within t F.extra := by
  have hfit := bind_inv hs hb
  rw [bind_ok hs hfit] at hb
  rw [← Except.ok.inj hb]
  refine ⟨filter_fst_nodup _ hfit.nodup, fun k hk => mem_others_fst.2 (h1 k hk), fun k hk => ?_⟩
  obtain ⟨h3, h4⟩ := mem_others_fst.1 hk
  exact (h2 k h3).resolve_left h4

/-- the condition on the calls of `misfits` that makes them harmless: no call binds its arguments -/
def Refused (c : Call) : Prop := c.fwd = false ∧ ∀ t ∈ c.targets, ∀ f, fns[t]? = some f → ¬ Fits f.sig c.npos c.kws

theorem called_within (hcalls : ∀ c ∈ calls, checkCall c = true) (hmis : ∀ c ∈ misfits, Refused c)
    (hfns : checkFns 0 fns = true) {t : ℕ} {E : List (ℕ × V)} (h : Called t E) : Within t E := by
  have hs : ∀ {t : ℕ} {f : Fn}, fns[t]? = some f → f.sig.params.Nodup := fun {t f} hf => by
    have := checkFns_get fns 0 t f hfns hf
    rw [checkFn, Bool.and_eq_true, nodupB_iff] at this
    exact this.1
  have htar : ∀ {c : Call} {t : ℕ}, c ∈ calls → t ∈ c.targets → checkTarget c t = true := fun {c t} hc ht => by
    have := hcalls c hc
    rw [checkCall, Bool.and_eq_true, List.all_eq_true] at this
    exact this.2 t ht
  induction h with
  | @plain c t f args kw F hc ht hf h1 h2 h3 hb =>
    rcases List.mem_append.1 hc with hc | hc
    · obtain ⟨k1, k2, k3⟩ := plain_keys (htar hc ht) h1
      obtain ⟨_, a2, a3⟩ := target_sound (htar hc ht) hf k1 k2 k3
      rw [← h3] at a2 a3
      exact within_of (hs hf) hb a2 a3
    · have := bind_inv (hs hf) hb
      rw [h2, h3] at this
      exact absurd this ((hmis c hc).2 t ht f hf)
  | @forward c g t f args kw E F hc ht hf h1 h2 _ h4 h5 hb ih =>
    rcases List.mem_append.1 hc with hc | hc
    · obtain ⟨k1, k2, k3⟩ := forward_keys (htar hc ht) h1 h2 ih h5
      obtain ⟨_, a2, a3⟩ := target_sound (htar hc ht) hf k1 k2 k3
      exact within_of (hs hf) hb a2 a3
    · rw [(hmis c hc).1] at h1; exact Bool.noConfusion h1

theorem made_fits (hcalls : ∀ c ∈ calls, checkCall c = true) (hmis : ∀ c ∈ misfits, Refused c)
    (hfns : checkFns 0 fns = true) {c : Call} (hc : c ∈ calls) {t : ℕ} (ht : t ∈ c.targets) {f : Fn} (hf : fns[t]? = some f)
    {args : List V} {kw : List (ℕ × V)} (h : Made c args kw) : Fits f.sig args.length (kw.map Prod.fst) := by
  have htar : checkTarget c t = true := by
    have := hcalls c hc
    rw [checkCall, Bool.and_eq_true, List.all_eq_true] at this
    exact this.2 t ht
  cases h with
  | plain h1 h2 h3 =>
    obtain ⟨k1, k2, k3⟩ := plain_keys htar h1
    rw [h2, h3]
    exact (target_sound htar hf k1 k2 k3).1
  | forward h1 h2 hE h4 h5 =>
    obtain ⟨k1, k2, k3⟩ := forward_keys htar h1 h2 (called_within hcalls hmis hfns hE) h5
    rw [h4]
    exact (target_sound htar hf k1 k2 k3).1

/-! ## Names of derivatives -/

theorem digits_inj {a b : ℕ} (h : Nat.toDigits 10 a = Nat.toDigits 10 b) : a = b := by
  rw [← Nat.ofDigitChars_ten_toDigits (n := a), h, Nat.ofDigitChars_ten_toDigits]

/-- the text before the first underscore -/
theorem split_inj : ∀ {l m r t : List Char}, '_' ∉ l → '_' ∉ m → l ++ '_' :: r = m ++ '_' :: t → l = m ∧ r = t
  | [], [], _, _, _, _, h => ⟨rfl, by simpa using h⟩
  | [], b :: m, _, _, _, h2, h => by
    simp only [List.nil_append, List.cons_append, List.cons.injEq] at h
    exact absurd (by rw [← h.1]; simp) h2
  | a :: l, [], _, _, h1, _, h => by
    simp only [List.nil_append, List.cons_append, List.cons.injEq] at h
    exact absurd (by rw [h.1]; simp) h1
  | a :: l, b :: m, _, _, h1, h2, h => by
    simp only [List.cons_append, List.cons.injEq] at h
    have := split_inj (fun hc => h1 (List.mem_cons_of_mem _ hc)) (fun hc => h2 (List.mem_cons_of_mem _ hc)) h.2
    exact ⟨by rw [h.1, this.1], this.2⟩

/-- what stands between the `d` and the first underscore -/
def ordText (o : ℕ) : List Char := if o = 1 then [] else Nat.toDigits 10 o

theorem derivName_pos {o : ℕ} (h : o ≠ 0) (i : ℕ) :
    derivName o i = 'd' :: (ordText o ++ '_' :: 'x' :: 'i' :: (Nat.toDigits 10 i ++ '_' :: ['a', 'r', 'g'])) := by
  rw [derivName, if_neg h, ordText]
  split_ifs <;> rfl

theorem ordText_underscore (o : ℕ) : '_' ∉ ordText o := by
  rw [ordText]
  split_ifs
  · simp
  · exact Nat.underscore_not_in_toDigits

theorem ordText_inj {a b : ℕ} (h : ordText a = ordText b) : a = b := by
  simp only [ordText] at h
  split_ifs at h with h1 h2 h2
  · rw [h1, h2]
  · exact absurd h.symm Nat.toDigits_ne_nil
  · exact absurd h Nat.toDigits_ne_nil
  · exact digits_inj h

theorem derivName_inj {a i b j : ℕ} (h : derivName a i = derivName b j) : a = b ∧ i = j := by
  by_cases ha : a = 0
  · by_cases hb : b = 0
    · rw [derivName, derivName, if_pos ha, if_pos hb] at h
      simp only [List.cons.injEq, true_and] at h
      exact ⟨by rw [ha, hb], digits_inj h⟩
    · rw [derivName_pos hb, derivName, if_pos ha] at h
      exact absurd (List.cons.inj h).1 (by decide)
  · by_cases hb : b = 0
    · rw [derivName_pos ha, derivName, if_pos hb] at h
      exact absurd (List.cons.inj h).1 (by decide)
    · rw [derivName_pos ha, derivName_pos hb] at h
      obtain ⟨h1, h2⟩ := split_inj (ordText_underscore a) (ordText_underscore b) (List.cons.inj h).2
      simp only [List.cons.injEq, true_and] at h2
      exact ⟨ordText_inj h1, digits_inj (split_inj Nat.underscore_not_in_toDigits Nat.underscore_not_in_toDigits h2).1⟩

end Calls
end Pot
