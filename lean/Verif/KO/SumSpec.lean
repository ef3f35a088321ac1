import Verif.KO.LayoutProps
import Verif.KO.PredictSpec
/-!
# Specification of the arithmetic of the states (C60)

The components `Comp` of the state, their places in the state vector (`start`) and in the tangent vector (`startTangent`) are those of C53.
-/

namespace StateObs.KO
open StateObs Matrix Rot Kine

/-- The components that hold a rotation: a quaternion in the state, a rotation vector in the tangent vector. -/
def Comp.isTurn : Comp → Bool
  | .orientation => true
  | .contactOrientation _ => true
  | _ => false

/-- The quaternion at the place `i` of a vector. -/
def quatAt (x : DVec) (i : ℕ) : Quat := ⟨entry x (i + 3), entry x i, entry x (i + 1), entry x (i + 2)⟩

/-- The components that are in use: the gyrometer biases and the unmodeled wrench if they are estimated, the contacts that are set. -/
def InUse (o : Observer) (ni : ℕ) : Comp → Prop
  | .gyroBias i => o.withGyroBias = true ∧ i < ni
  | .unmodeledForce => o.withUnmodeledWrench = true
  | .unmodeledTorque => o.withUnmodeledWrench = true
  | .contactPosition n => IsSet o n
  | .contactOrientation n => IsSet o n
  | .contactForce n => IsSet o n
  | .contactTorque n => IsSet o n
  | _ => True

/-- The component `c` is in use and is at `i` in the state vector and at `j` in the tangent vector. -/
def At (o : Observer) (ni : ℕ) (c : Comp) (i j : ℕ) : Prop := InUse o ni c ∧ c.start o = .ok i ∧ c.startTangent o = .ok j

/-- The quaternions of the components in use are unit quaternions. -/
def UnitState (o : Observer) (ni : ℕ) (x : DVec) : Prop := ∀ c i j, At o ni c i j → c.isTurn = true → (quatAt x i).normSq = 1

/-- The library takes a rotation vector with a norm below 1e-16 to be no rotation. -/
noncomputable def rounded (v : V3) : V3 := if nrm v ≤ 1e-16 then 0 else v

/-- `s` is `x` moved by the increment `t`: vectors are added, orientations turned about the axes of the world, the rest is kept. -/
structure IsSum (o : Observer) (ni : ℕ) (x t s : DVec) : Prop where
  size : s.size = x.size
  vec : ∀ c i j, At o ni c i j → c.isTurn = false → at3 s i = at3 x i + at3 t j
  turn : ∀ c i j, At o ni c i j → c.isTurn = true → (quatAt x i).normSq = 1 →
    (quatAt s i).normSq = 1 ∧ (quatAt s i).toMat = NormedSpace.exp (hat (rounded (at3 t j))) * (quatAt x i).toMat
  rest : ∀ k, (∀ c i j, At o ni c i j → ¬(i ≤ k ∧ k < i + c.size)) → entry s k = entry x k

/-- `d` is the increment from `y` to `x`; the entries of the components that are not in use are those of `old`. -/
structure IsDifference (o : Observer) (ni : ℕ) (old x y d : DVec) : Prop where
  size : d.size = o.tangentSize
  vec : ∀ c i j, At o ni c i j → c.isTurn = false → at3 d j = at3 x i - at3 y i
  turn : ∀ c i j, At o ni c i j → c.isTurn = true → (quatAt x i).normSq = 1 → (quatAt y i).normSq = 1 →
    NormedSpace.exp (hat (at3 d j)) * (quatAt y i).toMat = (quatAt x i).toMat ∧ nrm (at3 d j) ≤ Real.pi
  rest : ∀ k, (∀ c i j, At o ni c i j → ¬(j ≤ k ∧ k < j + 3)) → entry d k = entry old k

/-- All the components are in use. -/
def AllInUse (o : Observer) (nc : ℕ) : Prop := o.withGyroBias = true ∧ o.withUnmodeledWrench = true ∧ ∀ n < nc, IsSet o n

end StateObs.KO
