import Verif.Rot.Model
/-!
# Scalar helpers

`include/state-observation/tools/miscellaneous-algorithms.hpp` 24-190 and `definitions.hxx` 674-682, over the reals. A division by
zero (infinite or NaN in floating point) is `ub`.
-/

namespace StateObs.Misc
open StateObs Matrix

/-- `x / y` in `double`. -/
noncomputable def div (x y : ℝ) : Res ℝ := if y = 0 then .ub else .ok (x / y)

/-- `square`, 24-29. -/
def square (x : ℝ) : ℝ := x * x

/-- `derivate`, 31-37, for vectors. -/
noncomputable def derivate {n : ℕ} (o1 o2 : Fin n → ℝ) (dt : ℝ) : Res (Fin n → ℝ) := do
  let r ← div 1 dt
  .ok (r • (o2 - o1))

/-- `signum`, 39-44. -/
noncomputable def signum (x : ℝ) : ℤ := (if 0 < x then 1 else 0) - (if x < 0 then 1 else 0)

/-- `checkIfNormalized`, 54-86 (the second overload also writes the squared norm to its argument). -/
def checkIfNormalized (v : V3) : Prop := ¬ |v ⬝ᵥ v - 1| > Kine.epsilon1

/-- `clampScalar(x, max, min)`, 95-116. -/
noncomputable def clampScalar (x max min : ℝ) : ℝ := if x > max then max else if x < min then min else x

/-- `clampScalar(x, limit)`, 118-128. -/
noncomputable def clampLimit (x limit : ℝ) : ℝ := clampScalar x limit (-limit)

open Classical in
/-- `normalizedLazy`, 130-144. -/
noncomputable def normalizedLazy (v : V3) : Res V3 :=
  if checkIfNormalized v then .ok v
  else if Real.sqrt (v ⬝ᵥ v) = 0 then .ub
  else .ok fun i => v i / Real.sqrt (v ⬝ᵥ v)

/-- `finiteTimeAccControl`, 146-156. -/
noncomputable def finiteTimeAccControl (x xd kp kv : ℝ) : Res ℝ := do
  let sax := Real.sqrt |x|
  let xdr := kp * signum x * sax
  let y := xd - xdr
  let ydr := -kv * signum y * Real.sqrt |y|
  let q ← div (kp * xd) (2 * sax)
  .ok (ydr - q)

/-- The loop of the vector version, 165-168, from index `i`: a coefficient that is not written is `none`. -/
noncomputable def accLoop (x xd : List ℝ) (kp kv : ℝ) : ℕ → List (Option ℝ) → ℕ → Res (List (Option ℝ))
  | 0, r, _ => .ok r
  | n + 1, r, i => match x[i]?, xd[i]? with
    | some a, some b => do
      let v ← finiteTimeAccControl a b kp kv
      accLoop x xd kp kv n (r.set i (some v)) (i + 1)
    | _, _ => .assertFail

/-- `finiteTimeAccControl` on vectors, 158-170: the loop starts at index 1. -/
noncomputable def finiteTimeAccControlVec (x xd : List ℝ) (kp kv : ℝ) : Res (List (Option ℝ)) :=
  accLoop x xd kp kv (x.length - 1) (List.replicate x.length none) 1

/-- One step of `Detail::sqrtNewtonRaphson`, 176. -/
noncomputable def newton (x c : ℝ) : ℝ := 0.5 * (c + x / c)

/-- `Detail::sqrtNewtonRaphson`, 174-177: the recursion ends with value `r`. The division by zero of the case `c = 0`, `c ≠ prev` does not
end. -/
inductive Ends (x : ℝ) : ℝ → ℝ → ℝ → Prop
  | stop (c : ℝ) : Ends x c c c
  | step (c prev r : ℝ) (h : c ≠ prev) (h0 : c ≠ 0) (hr : Ends x (newton x c) c r) : Ends x c prev r

/-- `tools::sqrt`, 186-190, for finite non-negative arguments: it starts from `x` with previous value 0. -/
def SqrtReturns (x r : ℝ) : Prop := 0 ≤ x ∧ Ends x x 0 r

/-- `isApprox`, definitions.hxx 674-677. -/
def isApprox (a b p : ℝ) : Prop := |a - b| < |a + b| * p

/-- `isApproxAbs`, definitions.hxx 679-682. -/
def isApproxAbs (a b p : ℝ) : Prop := |a - b| < p

end StateObs.Misc
