import Verif.Pendulum.Model
import Mathlib.Analysis.SpecialFunctions.Trigonometric.Deriv
import Mathlib.Analysis.Calculus.Deriv.Mul
/-!
# The elastic inverted pendulum (C86)
-/

namespace StateObs.Pendulum
open StateObs

/-- A motion of the pendulum in the plane: the point mass is at the abscissa `p` and the height `h` in a frame turned by `θ` around the elastic joint. The functions are
differentiable, with derivatives `p'` and `θ'`; at the time `t` these have the derivatives `a` and `α`. -/
structure Motion (p θ p' θ' : ℝ → ℝ) (t a α : ℝ) : Prop where
  p : ∀ s, HasDerivAt p (p' s) s
  θ : ∀ s, HasDerivAt θ (θ' s) s
  a : HasDerivAt p' a t
  α : HasDerivAt θ' α t

/-- Horizontal position of the mass. -/
noncomputable def X (h p θ : ℝ) : ℝ := p * Real.cos θ - h * Real.sin θ
/-- Vertical position of the mass. -/
noncomputable def Y (h p θ : ℝ) : ℝ := p * Real.sin θ + h * Real.cos θ

/-- The angular momentum theorem about the joint for a mass `m` at the height `h`, with an elastic moment `-kθ` and the weight: the angular momentum `m (X Y' - Y X')`
has at the time `t` the derivative `-kθ - m g X`. -/
def AngularMomentumLaw (k m h : ℝ) (p θ : ℝ → ℝ) (t : ℝ) : Prop :=
  HasDerivAt (fun s => m * (X h (p s) (θ s) * deriv (fun s => Y h (p s) (θ s)) s - Y h (p s) (θ s) * deriv (fun s => X h (p s) (θ s)) s))
    (-k * θ t - m * 9.8 * X h (p t) (θ t)) t

/-- What the calls ask for: the last value of each parameter (height, mass and period are 1 by default). -/
def lastOf {R α : Type} (f : Op R → Option α) (l : List (Op R)) : Option α := (l.filterMap f).getLast?

def height {R : Type} (l : List (Op R)) : ℝ := (lastOf (fun | .setHeight h => some h | _ => none) l).getD 1
def mass {R : Type} (l : List (Op R)) : ℝ := (lastOf (fun | .setMass h => some h | _ => none) l).getD 1
def period {R : Type} (l : List (Op R)) : ℝ := (lastOf (fun | .setSamplingPeriod h => some h | _ => none) l).getD 1
def elasticity {R : Type} (l : List (Op R)) : Option ℝ := lastOf (fun | .setElasticity h => some h | _ => none) l

theorem run_snoc {R : Type} (l : List (Op R)) (op : Op R) : run (l ++ [op]) = Op.exec (run l) op := by simp [run]

theorem run_params {R : Type} (l : List (Op R)) : (run l).h = height l ∧ (run l).m = mass l ∧ (run l).dt = period l ∧ (run l).k = elasticity l := by
  induction l using List.reverseRecOn with
  | nil => exact ⟨rfl, rfl, rfl, rfl⟩
  | append_singleton l op ih =>
    rw [run_snoc]
    obtain ⟨h1, h2, h3, h4⟩ := ih
    cases op <;> simp only [Op.exec, height, mass, period, elasticity, lastOf, List.filterMap_append, List.filterMap_cons, List.filterMap_nil, List.append_nil,
      List.getLast?_append, List.getLast?_singleton, Option.some_or, Option.getD_some] <;> exact ⟨by first | trivial | exact h1, by first | trivial | exact h2, by first | trivial | exact h3, by first | trivial | exact h4⟩

/-- The rate of the angular momentum. -/
theorem angularMomentum_deriv {p θ p' θ' : ℝ → ℝ} {t a α : ℝ} (m h : ℝ) (hm : Motion p θ p' θ' t a α) :
    HasDerivAt (fun s => m * (X h (p s) (θ s) * deriv (fun s => Y h (p s) (θ s)) s - Y h (p s) (θ s) * deriv (fun s => X h (p s) (θ s)) s))
      (m * ((p t ^ 2 + h ^ 2) * α + 2 * p t * p' t * θ' t - h * a)) t := by
  have hX : ∀ s, HasDerivAt (fun s => X h (p s) (θ s)) (p' s * Real.cos (θ s) + p s * (-Real.sin (θ s) * θ' s) - h * (Real.cos (θ s) * θ' s)) s := fun s =>
    ((hm.p s).mul (hm.θ s).cos).sub ((hm.θ s).sin.const_mul h)
  have hY : ∀ s, HasDerivAt (fun s => Y h (p s) (θ s)) (p' s * Real.sin (θ s) + p s * (Real.cos (θ s) * θ' s) + h * (-Real.sin (θ s) * θ' s)) s := fun s =>
    ((hm.p s).mul (hm.θ s).sin).add ((hm.θ s).cos.const_mul h)
  have e : (fun s => m * (X h (p s) (θ s) * deriv (fun s => Y h (p s) (θ s)) s - Y h (p s) (θ s) * deriv (fun s => X h (p s) (θ s)) s)) =
      fun s => m * ((p s ^ 2 + h ^ 2) * θ' s - h * p' s) := by
    funext s
    rw [(hX s).deriv, (hY s).deriv, X, Y]
    have := Real.sin_sq_add_cos_sq (θ s)
    linear_combination (m * ((p s ^ 2 + h ^ 2) * θ' s - h * p' s)) * this
  rw [e]
  have := ((((hm.p t).pow 2).add_const (h ^ 2)).mul hm.α).sub (hm.a.const_mul h) |>.const_mul m
  refine this.congr_deriv ?_
  simp only [Pi.pow_apply]
  push_cast
  ring

/-- **C86**: with the parameters last given (elasticity given, non-null mass, mass not at the joint) and without noise, the new positions and speeds are the old ones plus the
period times the speeds and accelerations; the abscissa has the acceleration given as the input, and the angle an acceleration such that on every motion that passes by
the state with these accelerations the angular momentum theorem holds, **provided that the abscissa or the angle does not move, or the abscissa is equal to the height**. -/
theorem C86_partial {R : Type} (l : List (Op R)) (hn : (run l).noise = none) (k : ℝ) (hk : elasticity l = some k) (hm : mass l ≠ 0) (r : R) (x : Fin 4 → ℝ) (u : Fin 1 → ℝ)
    (hx : x 0 ≠ 0 ∨ height l ≠ 0) :
    ∃ (α : ℝ) (y : Fin 4 → ℝ), stateDynamics (run l) r ⟨4, x⟩ ⟨1, u⟩ = .ok (y, r) ∧
      y 0 = x 0 + period l * x 2 ∧ y 1 = x 1 + period l * x 3 ∧ y 2 = x 2 + period l * u 0 ∧ y 3 = x 3 + period l * α ∧
      (x 2 = 0 ∨ x 3 = 0 ∨ x 0 = height l → ∀ (p θ p' θ' : ℝ → ℝ) (t : ℝ), Motion p θ p' θ' t (u 0) α → p t = x 0 → θ t = x 1 → p' t = x 2 → θ' t = x 3 →
        AngularMomentumLaw k (mass l) (height l) p θ t) := by
  obtain ⟨h1, h2, h3, h4⟩ := run_params l
  have hd : 0 < x 0 * x 0 + height l * height l := by
    rcases hx with hx | hx
    · have := mul_self_pos.2 hx
      have := mul_self_nonneg (height l)
      linarith
    · have := mul_self_pos.2 hx
      have := mul_self_nonneg (x 0)
      linarith
  have hne : mass l * (x 0 * x 0 + height l * height l) ≠ 0 := mul_ne_zero hm hd.ne'
  refine ⟨(1 / (mass l * (x 0 * x 0 + height l * height l))) * (-k * x 1 - mass l * 9.8 * (Real.cos (x 1) * x 0 - Real.sin (x 1) * height l) +
    mass l * (height l * u 0 - 2 * x 3 * (height l * x 2))),
    ![x 0 + period l * x 2, x 1 + period l * x 3, x 2 + period l * u 0, x 3 + period l * ((1 / (mass l * (x 0 * x 0 + height l * height l))) * (-k * x 1 -
      mass l * 9.8 * (Real.cos (x 1) * x 0 - Real.sin (x 1) * height l) + mass l * (height l * u 0 - 2 * x 3 * (height l * x 2))))], ?_, rfl, rfl, rfl, rfl, ?_⟩
  · rw [stateDynamics, dif_pos rfl, dif_pos rfl]
    simp only [angAcc, h4, hk, h1, h2, h3, hn, Function.comp, Fin.cast_eq_self, if_neg hne, Res.ok_bind, Imu.addNoise]
  · intro hs p θ p' θ' t hM e1 e2 e3 e4
    refine (angularMomentum_deriv (mass l) (height l) hM).congr_deriv ?_
    rw [e1, e2, e3, e4, X]
    have hd' : x 0 ^ 2 + height l ^ 2 ≠ 0 := by nlinarith
    have key : x 2 * x 3 * (x 0 - height l) = 0 := by
      rcases hs with h | h | h <;> rw [h] <;> ring
    field_simp
    linear_combination (2 * mass l) * key

theorem motion_exists (x0 x1 x2 x3 a α : ℝ) : ∃ p θ p' θ' : ℝ → ℝ, Motion p θ p' θ' 0 a α ∧ p 0 = x0 ∧ θ 0 = x1 ∧ p' 0 = x2 ∧ θ' 0 = x3 := by
  have h1 : ∀ v b s : ℝ, HasDerivAt (fun s => v + b * s) b s := fun v b s => by
    simpa using ((hasDerivAt_id s).const_mul b).const_add v
  have h2 : ∀ x v b s : ℝ, HasDerivAt (fun s => x + v * s + b * (s ^ 2 / 2)) (v + b * s) s := fun x v b s => by
    refine ((((hasDerivAt_id s).const_mul v).const_add x).add ((((hasDerivAt_id s).pow 2).div_const 2).const_mul b)).congr_deriv ?_
    simp
  exact ⟨_, _, _, _, ⟨h2 x0 x2 a, h2 x1 x3 α, h1 x2 a 0, h1 x3 α 0⟩, by simp, by simp, by simp, by simp⟩

/-- **C86** fails: the Coriolis term has the height in place of the abscissa. For every non-null mass, every elasticity and every height there is a state such that a motion
that passes by it with the accelerations of `stateDynamics` (the period is 1) does not follow the angular momentum theorem. -/
theorem C86_false {R : Type} (m h k : ℝ) (hm : m ≠ 0) (r : R) :
    ∃ (x : Fin 4 → ℝ) (u : Fin 1 → ℝ) (y : Fin 4 → ℝ), stateDynamics (run [.setMass m, .setHeight h, .setElasticity k]) r ⟨4, x⟩ ⟨1, u⟩ = .ok (y, r) ∧
      ∃ (p θ p' θ' : ℝ → ℝ), Motion p θ p' θ' 0 (y 2 - x 2) (y 3 - x 3) ∧ p 0 = x 0 ∧ θ 0 = x 1 ∧ p' 0 = x 2 ∧ θ' 0 = x 3 ∧
        ¬ AngularMomentumLaw k m h p θ 0 := by
  have hd : 0 < (h + 1) * (h + 1) + h * h := by nlinarith [sq_nonneg (2 * h + 1)]
  have hne : m * ((h + 1) * (h + 1) + h * h) ≠ 0 := mul_ne_zero hm hd.ne'
  set α := (1 / (m * ((h + 1) * (h + 1) + h * h))) * (-k * 0 - m * 9.8 * (Real.cos 0 * (h + 1) - Real.sin 0 * h) + m * (h * 0 - 2 * 1 * (h * 1))) with hα
  obtain ⟨p, θ, p', θ', hM, e1, e2, e3, e4⟩ := motion_exists (h + 1) 0 1 1 0 α
  refine ⟨![h + 1, 0, 1, 1], ![0], ![h + 1 + 1 * 1, 0 + 1 * 1, 1 + 1 * 0, 1 + 1 * α], ?_, p, θ, p', θ', by simpa using hM, e1, e2, e3, e4, ?_⟩
  · have e : angAcc (run (R := R) [.setMass m, .setHeight h, .setElasticity k]) (h + 1) 0 1 1 0 = .ok α := if_neg hne
    rw [stateDynamics, dif_pos rfl, dif_pos rfl]
    show (angAcc (run (R := R) [.setMass m, .setHeight h, .setElasticity k]) (h + 1) 0 1 1 0 >>= _) = _
    rw [e]
    rfl
  · intro hL
    have := (angularMomentum_deriv m h hM).unique hL
    rw [e1, e2, e3, e4, X, hα] at this
    simp only [Real.cos_zero, Real.sin_zero] at this
    have hd' : (h + 1) ^ 2 + h ^ 2 ≠ 0 := by nlinarith
    field_simp at this
    apply hm
    nlinarith

/-- The elasticity has no default: before `setElasticity`, `stateDynamics` reads an uninitialised number. -/
theorem C86_elasticity_false {R : Type} (l : List (Op R)) (hk : ∀ k, .setElasticity k ∉ l) (r : R) (x : Fin 4 → ℝ) (u : Fin 1 → ℝ) :
    stateDynamics (run l) r ⟨4, x⟩ ⟨1, u⟩ = .ub := by
  obtain ⟨-, -, -, h4⟩ := run_params l
  have : elasticity l = none := by
    have e : l.filterMap (fun | .setElasticity h => some h | _ => none) = ([] : List ℝ) := by
      rw [List.filterMap_eq_nil_iff]
      intro op hop
      cases op <;> try rfl
      exact absurd hop (hk _)
    rw [elasticity, lastOf, e]; rfl
  rw [stateDynamics, dif_pos rfl, dif_pos rfl]
  simp only [angAcc, h4, this]
  rfl

/-! ## A case -/

/-- The hypotheses of `C86_partial` are met by a pendulum of mass 2 and height 1 that turns, with a fixed abscissa; there is a motion with its accelerations. -/
theorem C86_example (α : ℝ) : (run (R := Unit) [.setMass 2, .setElasticity 3]).noise = none ∧ elasticity (R := Unit) [.setMass 2, .setElasticity 3] = some 3 ∧
    mass (R := Unit) [.setMass 2, .setElasticity 3] = 2 ∧ height (R := Unit) [.setMass 2, .setElasticity 3] = 1 ∧
    ∃ p θ p' θ' : ℝ → ℝ, Motion p θ p' θ' 0 0 α ∧ p 0 = 5 ∧ θ 0 = 1 ∧ p' 0 = 0 ∧ θ' 0 = 7 :=
  ⟨rfl, rfl, rfl, rfl, motion_exists 5 1 0 7 0 α⟩

end StateObs.Pendulum
