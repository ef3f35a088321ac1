import Verif.Kalman.DynMat
/-!
# Segments and blocks of dynamically sized vectors and matrices

`v.segment<n>(i)`, `M.block<n, n>(i, j)` of Eigen: a segment or a block outside the object fails Eigen's assertion. `setBlockStateCovariance` of
src/kinetics-observer.cpp.
-/

namespace StateObs
open StateObs

namespace DVec

/-- `v.segment<n>(i)` as a value. -/
def seg (n : ℕ) (v : DVec) (i : ℕ) : Res (Fin n → ℝ) :=
  if h : i + n ≤ v.size then .ok fun j => v.val ⟨i + j, by omega⟩ else .assertFail

/-- `v.segment<n>(i) = w`. -/
def setSeg (n : ℕ) (v : DVec) (i : ℕ) (w : Fin n → ℝ) : Res DVec :=
  if i + n ≤ v.size then .ok ⟨v.size, fun j => if h : i ≤ j.1 ∧ j.1 < i + n then w ⟨j.1 - i, by omega⟩ else v.val j⟩ else .assertFail

/-- `v.segment<n>(i) = l` for a vector `l` of variable size. -/
def setList (n : ℕ) (v : DVec) (i : ℕ) (l : List ℝ) : Res DVec :=
  if h : l.length = n then setSeg n v i fun j => l.get (Fin.cast h.symm j) else .assertFail

/-- `v.segment<n>(i) += t.segment<n>(j)`. -/
def addSeg (n : ℕ) (v : DVec) (i : ℕ) (t : DVec) (j : ℕ) : Res DVec := do
  let a ← v.seg n i
  let b ← t.seg n j
  v.setSeg n i (a + b)

/-- `d.segment<n>(i) = v.segment<n>(j) - w.segment<n>(j)`. -/
def diffSeg (n : ℕ) (d : DVec) (i : ℕ) (v w : DVec) (j : ℕ) : Res DVec := do
  let a ← v.seg n j
  let b ← w.seg n j
  d.setSeg n i (a - b)

end DVec

namespace DMat

/-- `M.block(r, c, nr, nc).setZero()`. -/
def zeroBlock (M : DMat) (r c nr nc : ℕ) : Res DMat :=
  if r + nr ≤ M.rows ∧ c + nc ≤ M.cols then
    .ok ⟨M.rows, M.cols, fun i j => if (r ≤ i.1 ∧ i.1 < r + nr) ∧ (c ≤ j.1 ∧ j.1 < c + nc) then 0 else M.val i j⟩
  else .assertFail

/-- `M.block<n, n>(r, c) = B` for a matrix `B` of variable size. -/
def setBlock (n : ℕ) (M : DMat) (r c : ℕ) (B : DMat) : Res DMat :=
  if r + n ≤ M.rows ∧ c + n ≤ M.cols then
    if hB : B.rows = n ∧ B.cols = n then
      .ok ⟨M.rows, M.cols, fun i j =>
        if h : (r ≤ i.1 ∧ i.1 < r + n) ∧ (c ≤ j.1 ∧ j.1 < c + n) then B.val ⟨i.1 - r, by omega⟩ ⟨j.1 - c, by omega⟩ else M.val i j⟩
    else .assertFail
  else .assertFail

end DMat

namespace KO

/-- `setBlockStateCovariance<blockSize>`, kinetics-observer.cpp 30-39. The differences in lines 37-38 are not negative once line 34 has passed. -/
def setBlockStateCovariance (n : ℕ) (M B : DMat) (i : ℕ) : Res DMat := do
  let M1 ← M.setBlock n i i B
  let M2 ← M1.zeroBlock i 0 n i
  let M3 ← M2.zeroBlock 0 i i n
  let M4 ← M3.zeroBlock (i + n) i (M.rows - i - n) n
  M4.zeroBlock i (i + n) n (M.rows - i - n)

end KO
end StateObs
