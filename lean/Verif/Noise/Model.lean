import Verif.Kalman.LLT
/-!
# Gaussian white noise

src/gaussian-white-noise.cpp, probability-law-simulation.hxx. The random numbers drawn by `std::normal_distribution<double>(0, 1)` are given as a
sequence; their law is a hypothesis of the theorems that need it.
-/

namespace StateObs.Noise
open Matrix StateObs

/-- `LLT::matrixL()` in exact arithmetic, also when the factorisation stops: the columns before the first pivot that is not positive are computed,
the others keep the lower triangle of the given matrix (Eigen's unblocked algorithm, used below 32 rows; above, the blocked one differs in the
columns it leaves after a failure). `S` is the current Schur complement, `O` the given matrix; only lower triangles are read. -/
noncomputable def lltLower : (n : ℕ) → (S O : Matrix (Fin n) (Fin n) ℝ) → Matrix (Fin n) (Fin n) ℝ
  | 0, _, _ => 0
  | n + 1, S, O =>
    if S 0 0 ≤ 0 then Matrix.of fun i j => if j ≤ i then O i j else 0
    else
      let l := Real.sqrt (S 0 0)
      let c : Fin n → ℝ := fun i => S i.succ 0 / l
      let L := lltLower n (fun i j => (if j ≤ i then S i.succ j.succ else S j.succ i.succ) - c i * c j) (fun i j => O i.succ j.succ)
      Matrix.of (Fin.cons (Fin.cons l 0) fun i => Fin.cons (c i) (L i))

/-- The members. -/
structure GWN where
  dim : ℕ
  std : DMat
  bias : DVec
  sum : DVec → DVec → Res DVec

/-- `GaussianWhiteNoise(dimension)`, gaussian-white-noise.cpp 9-13; `detail::defaultSum` (state-vector-arithmetics.cpp) adds. -/
def ctor (dim : ℕ) : GWN := ⟨dim, ⟨dim, dim, 1⟩, ⟨dim, 0⟩, DVec.add⟩

/-- `GaussianWhiteNoise()`, gaussian-white-noise.cpp 15. -/
def ctor0 : GWN := ⟨0, DMat.empty, ⟨0, 0⟩, DVec.add⟩

/-- `getGaussianVector(std, bias, rows, 1)`, probability-law-simulation.hxx 1-33; `g` are the numbers drawn, in order. -/
def getGaussianVector (std : DMat) (bias : DVec) (rows : ℕ) (g : ℕ → ℝ) : Res DVec := do
  let y ← std.mulVec ⟨rows, fun i => g i⟩
  y.add bias

/-- `getNoisy`, gaussian-white-noise.cpp 17-24. -/
def getNoisy (s : GWN) (v : DVec) (g : ℕ → ℝ) : Res DVec := do
  Res.assert (v.hasSize s.dim)
  let n ← getGaussianVector s.std s.bias s.dim g
  s.sum v n

/-- `setStandardDeviation`, gaussian-white-noise.cpp 26-30. -/
def setStandardDeviation (s : GWN) (std : DMat) : Res GWN := do
  Res.assert (std.hasSize s.dim s.dim)
  .ok { s with std := std }

/-- `Matrix L(cov.llt().matrixL())`; the factorisation asserts that the matrix is square. -/
noncomputable def lltL (M : DMat) : Res DMat :=
  if h : M.cols = M.rows then
    .ok ⟨M.rows, M.rows, lltLower M.rows (M.val.submatrix id (Fin.cast h.symm)) (M.val.submatrix id (Fin.cast h.symm))⟩
  else .assertFail

/-- `setCovarianceMatrix`, gaussian-white-noise.cpp 32-37. -/
noncomputable def setCovarianceMatrix (s : GWN) (cov : DMat) : Res GWN := do
  Res.assert (cov.hasSize s.dim s.dim)
  let L ← lltL cov
  .ok { s with std := L }

/-- `setBias`, gaussian-white-noise.cpp 39-43. -/
def setBias (s : GWN) (bias : DVec) : Res GWN := do
  Res.assert (bias.hasSize s.dim)
  .ok { s with bias := bias }

/-- `setDimension`, gaussian-white-noise.cpp 50-55. -/
def setDimension (s : GWN) (dim : ℕ) : GWN := { s with dim := dim, bias := ⟨dim, 0⟩, std := ⟨dim, dim, 1⟩ }

/-- `setSumFunction`, gaussian-white-noise.cpp 69-74. -/
def setSumFunction (s : GWN) (sum : DVec → DVec → Res DVec) : GWN := { s with sum := sum }

/-- The public setters (`getNoisy` changes no other member than the value it returns). -/
inductive Op where
  | setStandardDeviation (std : DMat)
  | setCovarianceMatrix (cov : DMat)
  | setBias (bias : DVec)
  | setDimension (dim : ℕ)
  | setSumFunction (sum : DVec → DVec → Res DVec)

/-- The effect of a call. -/
noncomputable def exec (s : GWN) : Op → Res GWN
  | .setStandardDeviation std => setStandardDeviation s std
  | .setCovarianceMatrix cov => setCovarianceMatrix s cov
  | .setBias bias => setBias s bias
  | .setDimension dim => .ok (setDimension s dim)
  | .setSumFunction sum => .ok (setSumFunction s sum)

/-- A sequence of calls. -/
noncomputable def run (s : GWN) : List Op → Res GWN
  | [] => .ok s
  | op :: ops => do
    let s ← exec s op
    run s ops

end StateObs.Noise
