import Verif.KO.Blocks
import Verif.Rot.Basic
/-!
# The zero-moment point

`computeZmp` of misc-tools/zmpEstimation.cpp 31-86. Vectors of forces are `DVec`. Simplification: the poses of the sensors are 4×4 matrices (the code takes matrices of any size, and
its accesses fail an assertion of Eigen on smaller ones).
-/

namespace StateObs.Tools
open StateObs Matrix

/-- Poses: homogeneous matrices. -/
abbrev M4 := Matrix (Fin 4) (Fin 4) ℝ

/-- `fnormal`, `sumZmpx`, `sumZmpy`, `sumZmpz` (33-36). -/
structure Sums where
  fnormal : ℝ
  x : ℝ
  y : ℝ
  z : ℝ

/-- The matrix `M` of contact `i` (49-59): `mem i` is what the memory holds when neither of the two poses is assigned. -/
def pose (M1 M2 : M4) (mem : ℕ → M4) (i : ℕ) : M4 :=
  if i = 1 then M2 else if i = 0 then M1 else mem i

/-- One turn of the loop (61-73), for the wrench `f` at a contact of pose `M`. -/
noncomputable def zmpStep (M : M4) (f : Fin 6 → ℝ) (s : Sums) : Sums :=
  let fx := M 0 0 * f 0 + M 0 1 * f 1 + M 0 2 * f 2
  let fy := M 1 0 * f 0 + M 1 1 * f 1 + M 1 2 * f 2
  let fz := M 2 0 * f 0 + M 2 1 * f 1 + M 2 2 * f 2
  if fz > 0 then
    let mx := M 0 0 * f 3 + M 0 1 * f 4 + M 0 2 * f 5 + M 1 3 * fz - M 2 3 * fy
    let my := M 1 0 * f 3 + M 1 1 * f 4 + M 1 2 * f 5 + M 2 3 * fx - M 0 3 * fz
    ⟨s.fnormal + fz, s.x - my, s.y + mx, s.z + fz * M 2 3⟩
  else s

/-- The loop (40-74), `n` turns from contact `i`. The block is outside the vector: assertion of Eigen. -/
noncomputable def zmpLoop (forces : DVec) (P : ℕ → M4) : ℕ → ℕ → Sums → Res Sums
  | 0, _, s => .ok s
  | n + 1, i, s => do
    let f ← forces.seg 6 (i * 6)
    zmpLoop forces P n (i + 1) (zmpStep (P i) f s)

/-- `computeZmp` (31-86). -/
noncomputable def computeZmp (forces : DVec) (M1 M2 : M4) (mem : ℕ → M4) (contactNbr : ℕ) : Res V3 := do
  let s ← zmpLoop forces (pose M1 M2 mem) contactNbr 0 ⟨0, 0, 0, 0⟩
  if s.fnormal ≠ 0 then .ok ![s.x / s.fnormal, s.y / s.fnormal, s.z / s.fnormal] else .ok 0

end StateObs.Tools
