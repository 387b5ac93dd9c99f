import Verif.Model.Calls
import Verif.Model.NamesAll

/-!
# Where segment numbers, orders and basis indices come from

Eleven functions read an unbound name if a parameter is outside its range (Model/NamesAll.lean), three contain `assert sid == 2`, and
`get_M` and `get_etype` return `None` outside their range.  This file records, for each such parameter and for each parameter, attribute or result it is copied from, all
the places in the repository that give it a value.

A value is `some n` for the number `n` and `none` for `None`.  Where the parameter is one of a function of Model/Calls.lean, the places are
those of the calls of that function (Props/Ranges.lean proves that none is left out).

Simplifications.  `N_SEGMENT` is 3 (ps/basis.py:14, nothing assigns it).  A variable of a loop over a tuple or a `range` takes
any of the values, whether or not the loop body is reached.  `basis_index` is given together with `JJ`, so `none` stands for both being `None`; `_ext_calc_xi_derivs` looks at
`basis_index` only if `JJ` is not `None` (ps/extend.py:106).  The letters of `plot_allMK` are 0 for `'m'` and 1 for `'k'`; the members of
`EType` are 0, 1, 2.
-/

namespace Pot
namespace Ranges

/-- a value: a number, or `None` -/
abbrev Val := Option ℕ

/-- a parameter, attribute or result -/
inductive Node where
  /-- `args.o`, the option of io_util.py:31-34 -/
  | argO
  /-- `options['scheme_order']`, which is `self.scheme_order` of the solver (ps/ps.py:35) -/
  | schemeOrder
  /-- parameter of `get_M` (ps/ps.py:18-22) -/
  | getM
  /-- `self.order` of `APSolver` (fourier.py:15), read by `calc_eigenvals` (fourier.py:21) -/
  | order
  /-- the results of `get_sid` (domain_util.py:64-76) -/
  | getSid
  /-- `b_desc['sid']` (ps/basis.py:47) -/
  | bDesc
  /-- parameter `sid` of `get_boundary_sample_by_sid` (ps/debug.py:43) -/
  | sampleBySid
  /-- `p['sid']` of the points of `get_boundary_sample` (ps/debug.py:59, 71, 83) -/
  | sampleSid
  /-- parameter `sid` of `eval_d_u_outwards` (problems/smooth.py:33) -/
  | evalDU
  /-- parameter `sid` of `get_chebyshev_coef` (ps/basis.py:91) -/
  | chebCoef
  /-- parameter `sid` of `eval_g` (ps/basis.py:68) -/
  | evalG
  /-- parameter `sid` of `eval_g_inv` (ps/basis.py:72) -/
  | evalGInv
  /-- parameter `sid` of `eval_d_g_inv_arg` (ps/basis.py:76) -/
  | evalDGInv
  /-- parameter `sid` of `get_span_center` (ps/basis.py:53) -/
  | spanCenter
  /-- parameter `sid` of `eval_dn_B_arg` (ps/basis.py:80) -/
  | evalDnB
  /-- parameter `sid` of `_ext_calc_xi_derivs` (ps/extend.py:88) -/
  | xiDerivsInner
  /-- parameter `sid` of `ext_calc_xi_derivs` (ps/extend.py:154) -/
  | xiDerivs
  /-- parameter `taylor_sid` of `do_extend_taylor` (ps/extend.py:173) -/
  | taylorSid
  /-- parameter `radius_sid` of `_extend_inhomo_12_r` (ps/inhomo.py:95) -/
  | radius12r
  /-- parameter `radius_sid` of `_extend_inhomo_0_lr` (ps/inhomo.py:208) -/
  | radius0lr
  /-- parameter `radius_sid` of `_extend_inhomo_radius` (ps/inhomo.py:377) -/
  | radius
  /-- parameter `sid` of `get_radius_point` (ps/ps.py:79) -/
  | radiusPoint
  /-- parameter `sid` of `dist_to_radius` (ps/ps.py:96) -/
  | distRadius
  /-- parameter `sid` of `signed_dist_to_radius` (ps/ps.py:101) -/
  | signedDist
  /-- `index` in `get_Q` (ps/ps.py:164) -/
  | biQ
  /-- `index` in `extend_basis` (ps/basis.py:131) -/
  | biBasis
  /-- `basis_index` in `extend_boundary` (ps/extend.py:428) -/
  | biBoundary
  /-- `basis_index` in `mv_extend_boundary` (ps/extend.py:368) -/
  | biMv
  /-- `basis_index` in `do_extend_0_standard` and the eight others (ps/extend.py:278-366) -/
  | bi (sid etype : Fin 3)
  /-- `basis_index` in `do_extend_taylor` (ps/extend.py:173) -/
  | biTaylor
  /-- `basis_index` in `ext_calc_xi_derivs` (ps/extend.py:154) -/
  | biXi
  /-- `kwargs['basis_index']` in `_ext_calc_xi_derivs` (ps/extend.py:88) -/
  | biInner
  /-- `basis_index` where `_ext_calc_xi_derivs` looks at it (ps/extend.py:108) -/
  | biLooked
  /-- parameter `sid` of `etype_filter` (ps/debug.py:103) -/
  | etypeFilter
  /-- the results of `_extend_f_get_sid` (ps/inhomo.py:10-25) -/
  | fGetSid
  /-- parameter `sid` of `get_etype` (ps/extend.py:28) -/
  | etypeSid
  /-- the results of `get_etype` (ps/extend.py:28-71) -/
  | etype
  /-- 0 if in `extend_f` (ps/inhomo.py:50-51) `sid` is one of 0, 1, 2 and `etype` a member of `EType`, 1 otherwise -/
  | extendF
  /-- parameter `ntype` of `plot_allMK` (scripts/plot_domain.py:83) -/
  | allMK
  /-- parameter `u` of `color_plot` (ps/debug.py:271) -/
  | colorPlot
  deriving DecidableEq

/-- a place that gives a value -/
inductive Src where
  /-- one of these values -/
  | const (place : String) (vs : List Val)
  /-- the value of `n` -/
  | flow (place : String) (n : Node)
  /-- the value of `n`, if it is one of `vs` -/
  | only (place : String) (n : Node) (vs : List Val)
  /-- the value of `n`, if it is also a value of `m` -/
  | same (place : String) (n m : Node)
  /-- a result of a function applied to the value of `n` -/
  | image (place : String) (n : Node) (f : Val → List Val)

/-- the place in the source -/
def Src.place : Src → String
  | .const p _ | .flow p _ | .only p _ _ | .same p _ _ | .image p _ _ => p

/-- what `get_etype` returns for a segment number (ps/extend.py:28-71): a member of `EType` for 0, 1 and 2, otherwise `None` -/
def etypesFor (v : Val) : List Val := if v ∈ [some 0, some 1, some 2] then [some 0, some 1, some 2] else [none]

/-- whether a value is one of 0, 1, 2, as 0 for yes and 1 for no -/
def inThree (v : Val) : List Val := if v ∈ [some 0, some 1, some 2] then [some 0] else [some 1]

/-- the segment numbers -/
def three : List Val := [some 0, some 1, some 2]

/-- the line at which `mv_extend_boundary` calls the function for a segment and a type (standard, left, right; ps/extend.py:390-412) -/
def mvPlace : Fin 3 → Fin 3 → String
  | 0, 0 => "ps/extend.py:392" | 0, 1 => "ps/extend.py:394" | 0, 2 => "ps/extend.py:396"
  | 1, 0 => "ps/extend.py:400" | 1, 1 => "ps/extend.py:402" | 1, 2 => "ps/extend.py:404"
  | 2, 0 => "ps/extend.py:408" | 2, 1 => "ps/extend.py:410" | 2, 2 => "ps/extend.py:412"

/-- all places that give a value to a node -/
def src : Node → List Src
  | .argO => [.const "io_util.py:32" [some 4, some 2]]
  | .schemeOrder => [.flow "run.py:52" .argO, .flow "runz.py:58" .argO, .const "scripts/c0_basis.py:35" [some 4],
      .const "scripts/test_extend_f.py:86" [some 4], .const "scripts/plot_domain2.py:125" [some 4],
      .const "scripts/plot_domain.py:193" [some 4], .const "scripts/optimize_basis.py:40" [some 4],
      .const "scripts/extension_test.py:128" [some 4], .const "scripts/extend_basis_test.py:34" [some 4]]
  | .getM => [.flow "ps/ps.py:38" .schemeOrder]
  | .order => [.flow "ps/ps.py:55" .schemeOrder]
  | .getSid => [.const "domain_util.py:72" [some 1], .const "domain_util.py:74" [some 0], .const "domain_util.py:76" [some 2],
      .const "domain_util.py:75" [none]]
  | .bDesc => [.const "ps/basis.py:37" three]
  | .sampleBySid => [.const "ps/debug.py:30" three, .const "ps/debug.py:36" [some 0], .const "ps/debug.py:38" [some 0]]
  | .sampleSid => [.only "ps/debug.py:59" .sampleBySid [some 0], .only "ps/debug.py:71" .sampleBySid [some 1],
      .only "ps/debug.py:83" .sampleBySid [some 2]]
  | .evalDU => [.const "ps/debug.py:99" three, .flow "ps/debug.py:218" .sampleSid]
  | .chebCoef => [.const "ps/basis.py:122" [some 0], .const "ps/basis.py:128" [some 1, some 2], .const "ps/debug.py:101" three]
  | .evalG => [.flow "ps/basis.py:106" .chebCoef]
  | .evalGInv => [.same "ps/basis.py:82" .evalDnB .bDesc]
  | .evalDGInv => [.same "ps/basis.py:85" .evalDnB .bDesc]
  | .spanCenter => [.flow "ps/basis.py:69" .evalG, .flow "ps/basis.py:73" .evalGInv, .flow "ps/basis.py:77" .evalDGInv]
  | .evalDnB => [.flow "ps/debug.py:146" .getSid, .flow "ps/debug.py:231" .getSid, .flow "ps/extend.py:142" .xiDerivsInner]
  | .xiDerivsInner => [.flow "ps/extend.py:170" .xiDerivs]
  | .xiDerivs => [.flow "ps/extend.py:194" .taylorSid, .const "ps/extend.py:286" [some 0], .const "ps/extend.py:310" [some 1],
      .const "ps/extend.py:335" [some 2]]
  | .taylorSid => [.const "ps/extend.py:294" [some 0], .const "ps/extend.py:300" [some 0], .const "ps/extend.py:317" [some 1],
      .const "ps/extend.py:323" [some 1], .const "ps/extend.py:346" [some 2], .const "ps/extend.py:362" [some 2]]
  | .radius12r => [.const "ps/inhomo.py:400" [some 1], .const "ps/inhomo.py:409" [some 2]]
  | .radius0lr => [.const "ps/inhomo.py:321" [some 2], .const "ps/inhomo.py:324" [some 1]]
  | .radius => [.const "ps/inhomo.py:394" [some 1], .const "ps/inhomo.py:397" [some 1], .const "ps/inhomo.py:403" [some 2],
      .const "ps/inhomo.py:406" [some 2]]
  | .radiusPoint => [.const "ps/extend.py:65" [some 2], .const "ps/extend.py:328" [some 2], .const "ps/extend.py:344" [some 2],
      .const "ps/extend.py:360" [some 2], .const "ps/inhomo.py:57" [some 2], .only "ps/inhomo.py:119" .radius12r [some 2],
      .only "ps/inhomo.py:385" .radius [some 2], .flow "ps/ps.py:98" .distRadius, .flow "ps/ps.py:104" .signedDist]
  | .distRadius => [.const "ps/grid.py:235" [some 2], .flow "ps/ps.py:102" .signedDist]
  | .signedDist => [.const "ps/extend.py:336" [some 2], .const "ps/extend.py:348" [some 2], .const "ps/extend.py:364" [some 2],
      .only "ps/inhomo.py:117" .radius12r [some 2], .only "ps/inhomo.py:389" .radius [some 2]]
  | .biQ => [.const "ps/ps.py:188" [some 0], .const "ps/ps.py:198" [some 1]]
  | .biBasis => [.flow "ps/ps.py:168" .biQ, .const "scripts/extend_basis_test.py:46" [some 0, some 1]]
  | .biBoundary => [.flow "ps/basis.py:135" .biBasis, .const "ps/ps.py:246" [none], .const "scripts/extend_basis_test.py:56" [none]]
  | .biMv => [.flow "ps/extend.py:433" .biBoundary, .const "scripts/extension_test.py:58" [none]]
  | .bi s e => [.flow (mvPlace s e) .biMv]
  | .biTaylor => [.flow "ps/extend.py:294" (.bi 0 1), .flow "ps/extend.py:300" (.bi 0 2), .flow "ps/extend.py:317" (.bi 1 1),
      .flow "ps/extend.py:323" (.bi 1 2), .flow "ps/extend.py:346" (.bi 2 1), .flow "ps/extend.py:362" (.bi 2 2)]
  | .biXi => [.flow "ps/extend.py:194" .biTaylor, .flow "ps/extend.py:286" (.bi 0 0), .flow "ps/extend.py:310" (.bi 1 0),
      .flow "ps/extend.py:335" (.bi 2 0)]
  | .biInner => [.flow "ps/extend.py:170" .biXi]
  | .biLooked => [.image "ps/extend.py:108" .biInner fun v => if v = none then [] else [v]]
  | .etypeFilter => []
  | .fGetSid => [.const "ps/inhomo.py:18" [some 0], .const "ps/inhomo.py:21" [some 1], .const "ps/inhomo.py:23" [some 2],
      .const "ps/inhomo.py:25" [some 0]]
  | .etypeSid => [.flow "ps/debug.py:106" .etypeFilter, .const "ps/extend.py:386" three, .const "ps/grid.py:253" three,
      .const "ps/inhomo.py:17" [some 0], .flow "ps/inhomo.py:51" .fGetSid, .const "ps/inhomo.py:420" three]
  | .etype => [.image "ps/extend.py:28" .etypeSid etypesFor]
  | .extendF => [.image "ps/inhomo.py:50" .fGetSid inThree, .image "ps/inhomo.py:51" .etype inThree]
  | .allMK => [.const "scripts/plot_domain.py:211" [some 0], .const "scripts/plot_domain.py:213" [some 1]]
  | .colorPlot => []

/-- the place that sets `scheme_order` in the options of a solver, for each place that makes one; the options of ps/zmethod.py:402 are those
of `ZMethod` (ps/zmethod.py:397-398), which are those of runz.py:92 -/
def solverOrder : List (String × String) := [("ps/zmethod.py:402", "runz.py:58"), ("scripts/c0_basis.py:53", "scripts/c0_basis.py:35"),
  ("scripts/test_extend_f.py:44", "scripts/test_extend_f.py:86"), ("scripts/plot_domain2.py:126", "scripts/plot_domain2.py:125"),
  ("scripts/plot_domain2.py:136", "scripts/plot_domain2.py:125"), ("scripts/plot_domain.py:194", "scripts/plot_domain.py:193"),
  ("scripts/optimize_basis.py:55", "scripts/optimize_basis.py:40"), ("scripts/extension_test.py:47", "scripts/extension_test.py:128"),
  ("scripts/extend_basis_test.py:41", "scripts/extend_basis_test.py:34"), ("run.py:76", "run.py:52")]

/-- the function of Model/Calls.lean that the node is a parameter of -/
def fnOf : Node → Option ℕ
  | .getM => some 172
  | .sampleBySid => some 103
  | .evalDU => some 75
  | .chebCoef => some 98
  | .evalG => some 94
  | .evalGInv => some 95
  | .evalDGInv => some 96
  | .spanCenter => some 93
  | .evalDnB => some 97
  | .xiDerivsInner | .biInner => some 115
  | .xiDerivs | .biXi => some 116
  | .taylorSid | .biTaylor => some 117
  | .radius12r => some 135
  | .radius0lr => some 137
  | .radius => some 141
  | .radiusPoint => some 176
  | .distRadius => some 177
  | .signedDist => some 178
  | .biQ => some 184
  | .biBasis => some 101
  | .biBoundary => some 129
  | .biMv => some 128
  | .bi s e => some (119 + 3 * s.val + e.val)
  | .etypeFilter => some 106
  | .etypeSid => some 113
  | .allMK => some 248
  | .colorPlot => some 111
  | .argO | .schemeOrder | .order | .getSid | .bDesc | .sampleSid | .biLooked | .fGetSid | .etype | .extendF => none

/-- `Takes n v`: some sequence of steps gives the node the value `v` -/
inductive Takes : Node → Val → Prop where
  | const {n : Node} {p : String} {vs : List Val} {v : Val} : Src.const p vs ∈ src n → v ∈ vs → Takes n v
  | flow {n m : Node} {p : String} {v : Val} : Src.flow p m ∈ src n → Takes m v → Takes n v
  | only {n m : Node} {p : String} {vs : List Val} {v : Val} : Src.only p m vs ∈ src n → Takes m v → v ∈ vs → Takes n v
  | same {n m m' : Node} {p : String} {v : Val} : Src.same p m m' ∈ src n → Takes m v → Takes m' v → Takes n v
  | image {n m : Node} {p : String} {f : Val → List Val} {v w : Val} : Src.image p m f ∈ src n → Takes m v → w ∈ f v → Takes n w

end Ranges
end Pot
