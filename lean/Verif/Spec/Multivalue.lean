import Verif.Model.Multivalue

/-! # What adding and reducing multivalued grid functions should mean -/

namespace Spec
open Pot

/-- the two lists agree in the segment/type labels as far as the first one goes -/
def Matches (l1 l2 : List Entry) : Prop :=
  ∀ i (h : i < l1.length), ∃ h2 : i < l2.length, l1[i].setype = l2[i].setype

/-- every node of the first operand is a node of the second one, with matching labels -/
def Aligned (m1 m2 : Multivalue) : Prop :=
  ∀ nd ∈ m1.nodes, nd ∈ m2.nodes ∧ Matches (m1.data nd) (m2.data nd)

/-- the exception raised when the two lists at one node do not match -/
inductive NodeError (m1 m2 : Multivalue) (nd : Node) : PyErr → Prop
  | unknown (h : m1.data nd ≠ []) (h2 : nd ∉ m2.nodes) : NodeError m1 m2 nd .keyError
  | short (h2 : nd ∈ m2.nodes) (h : (m2.data nd).length < (m1.data nd).length)
      (hp : ∀ i (h : i < (m2.data nd).length) (h' : i < (m1.data nd).length),
        (m1.data nd)[i].setype = (m2.data nd)[i].setype) : NodeError m1 m2 nd .indexError
  | label (h2 : nd ∈ m2.nodes) (i : ℕ) (h : i < (m1.data nd).length) (h' : i < (m2.data nd).length)
      (hp : ∀ j (hj : j < i), (m1.data nd)[j].setype = (m2.data nd)[j].setype)
      (hne : (m1.data nd)[i].setype ≠ (m2.data nd)[i].setype) : NodeError m1 m2 nd .assertionError

/-- the sum at one node -/
noncomputable def sumEntries (l1 l2 : List Entry) : List Entry :=
  List.zipWith (fun x y => ⟨x.elen, x.value + y.value, x.setype⟩) l1 l2

/-- the mean of the values at a node -/
noncomputable def mean (l : List Entry) : ℂ := (l.map Entry.value).sum / l.length

end Spec
