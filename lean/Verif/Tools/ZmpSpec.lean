import Verif.Tools.ZmpModel
import Mathlib.Algebra.BigOperators.Group.Finset.Basic
/-!
# What the zero-moment point is (C137)
-/

namespace StateObs.Tools
open StateObs Matrix

/-- The rotation of a pose. -/
def rot (M : M4) : M3 := fun i j => M i.castSucc j.castSucc
/-- The position of a pose. -/
def pos (M : M4) : V3 := fun i => M i.castSucc 3

/-- The six components of the wrench at contact `i`. -/
def wrench (forces : DVec) (i : ℕ) : Fin 6 → ℝ := fun j => if h : 6 * i + j < forces.size then forces.val ⟨6 * i + j, h⟩ else 0

/-- The force of a wrench that is given in the frame of the contact, in the world. -/
def force (M : M4) (w : Fin 6 → ℝ) : V3 := rot M *ᵥ ![w 0, w 1, w 2]
/-- The moment of the wrench about the point `q`, in the world. -/
def moment (q : V3) (M : M4) (w : Fin 6 → ℝ) : V3 := rot M *ᵥ ![w 3, w 4, w 5] + (pos M - q) ⨯₃ force M w

/-- The pose of the contact: the first one, or the second one. -/
def two (M1 M2 : M4) (i : ℕ) : M4 := if i = 0 then M1 else M2

/-- The contacts among the `n` first ones that push upwards. -/
noncomputable def pushing (forces : DVec) (P : ℕ → M4) (n : ℕ) : Finset ℕ := (Finset.range n).filter fun i => 0 < force (P i) (wrench forces i) 2

/-- The moment of all the contacts that push, about `q`. -/
noncomputable def totalMoment (forces : DVec) (P : ℕ → M4) (n : ℕ) (q : V3) : V3 := ∑ i ∈ pushing forces P n, moment q (P i) (wrench forces i)

/-- The centre of pressure of one contact: the point at the height of the origin about which its moment has no horizontal component. -/
noncomputable def centre (M : M4) (w : Fin 6 → ℝ) : ℝ × ℝ := (-moment 0 M w 1 / force M w 2, moment 0 M w 0 / force M w 2)

/-- **C137**, full statement: the moment of the contacts about the point that is returned has no horizontal component. -/
def C137_statement : Prop :=
  ∀ (forces : DVec) (M1 M2 : M4) (mem : ℕ → M4) (n : ℕ) (z : V3), n ≤ 2 → computeZmp forces M1 M2 mem n = .ok z → (pushing forces (two M1 M2) n).Nonempty →
    totalMoment forces (two M1 M2) n z 0 = 0 ∧ totalMoment forces (two M1 M2) n z 1 = 0

end StateObs.Tools
