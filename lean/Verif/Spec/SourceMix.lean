import Verif.Spec.Superposition
import Verif.Model.Extend

/-! # Combinations of source terms -/

namespace Spec
open Pot

/-- every function the solver asks the third problem for is the combination of those of the first two -/
structure SrcRel (m : Mix) (s1 s2 s3 : Source) : Prop where
  f : ∀ x y, s3.f x y = m.app (s1.f x y) (s2.f x y)
  grad : ∀ x y g1 g2, s1.grad x y = .ok g1 → s2.grad x y = .ok g2 → s3.grad x y = .ok (m.app2 g1 g2)
  hess : ∀ x y g1 g2, s1.hess x y = .ok g1 → s2.hess x y = .ok g2 → s3.hess x y = .ok (m.app4 g1 g2)
  fPolar : ∀ r t, s3.fPolar r t = m.app (s1.fPolar r t) (s2.fPolar r t)
  gradPolar : ∀ r t g1 g2, s1.gradPolar r t = .ok g1 → s2.gradPolar r t = .ok g2 → s3.gradPolar r t = .ok (m.app2 g1 g2)
  hessPolar : ∀ r t g1 g2, s1.hessPolar r t = .ok g1 → s2.hessPolar r t = .ok g2 → s3.hessPolar r t = .ok (m.app4 g1 g2)
  dFth : ∀ r t, s3.dFth r t = m.app (s1.dFth r t) (s2.dFth r t)
  d2Fth : ∀ r t, s3.d2Fth r t = m.app (s1.d2Fth r t) (s2.d2Fth r t)
  dFr : ∀ r t, s3.dFr r t = m.app (s1.dFr r t) (s2.dFr r t)
  d2Fr : ∀ r t, s3.d2Fr r t = m.app (s1.d2Fr r t) (s2.d2Fr r t)
  d2Frth : ∀ r t, s3.d2Frth r t = m.app (s1.d2Frth r t) (s2.d2Frth r t)

/-- the source of a problem flagged `homogeneous`, none of whose functions but `f` is called, with the values its
derivatives would have -/
def effSource (s : Source) : Source :=
  if s.homogeneous then
    { s with
      grad := fun _ _ => .ok (0, 0)
      hess := fun _ _ => .ok ((0, 0), (0, 0))
      fPolar := fun _ _ => 0
      gradPolar := fun _ _ => .ok (0, 0)
      hessPolar := fun _ _ => .ok ((0, 0), (0, 0))
      dFth := fun _ _ => 0
      d2Fth := fun _ _ => 0
      dFr := fun _ _ => 0
      d2Fr := fun _ _ => 0
      d2Frth := fun _ _ => 0 }
  else s

/-- the third problem's source is the combination of the first two; a problem flagged `homogeneous` has source zero,
and the combination of two such problems is flagged so itself -/
structure SrcMix (m : Mix) (s1 s2 s3 : Source) : Prop where
  hom : s3.homogeneous = (s1.homogeneous && s2.homogeneous)
  zero1 : s1.homogeneous = true → ∀ x y, s1.f x y = 0
  zero2 : s2.homogeneous = true → ∀ x y, s2.f x y = 0
  f : ∀ x y, s3.f x y = m.app (s1.f x y) (s2.f x y)
  rel : s3.homogeneous = false → SrcRel m (effSource s1) (effSource s2) s3

end Spec
