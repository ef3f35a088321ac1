import Verif.Rot.Lemmas
import Mathlib.Analysis.Calculus.Deriv.Prod
import Mathlib.Analysis.Calculus.Deriv.Pow
/-!
# Trajectories of rotations: specification and helper lemmas
-/

namespace StateObs.Rot
open Matrix

/-- The rotation `R` turns with angular velocity `ω`, in the fixed frame: every vector attached to the body moves so. -/
def Turns (R : ℝ → M3) (ω : ℝ → V3) : Prop := ∀ t w, HasDerivAt (fun t => R t *ᵥ w) (ω t ⨯₃ (R t *ᵥ w)) t

/-- `x` is differentiable with derivative `x'`. -/
def Deriv (x x' : ℝ → V3) : Prop := ∀ t, HasDerivAt x (x' t) t

theorem hasDerivAt3 {f : ℝ → V3} {f' : V3} {t : ℝ} :
    HasDerivAt f f' t ↔ HasDerivAt (fun s => f s 0) (f' 0) t ∧ HasDerivAt (fun s => f s 1) (f' 1) t ∧ HasDerivAt (fun s => f s 2) (f' 2) t := by
  rw [hasDerivAt_pi]
  constructor
  · intro h; exact ⟨h 0, h 1, h 2⟩
  · rintro ⟨h0, h1, h2⟩ i
    fin_cases i <;> assumption

theorem hasDerivAt_cross {f g : ℝ → V3} {f' g' : V3} {t : ℝ} (hf : HasDerivAt f f' t) (hg : HasDerivAt g g' t) :
    HasDerivAt (fun s => f s ⨯₃ g s) (f' ⨯₃ g t + f t ⨯₃ g') t := by
  obtain ⟨f0, f1, f2⟩ := hasDerivAt3.1 hf
  obtain ⟨g0, g1, g2⟩ := hasDerivAt3.1 hg
  rw [hasDerivAt3]
  simp only [cross0, cross1, cross2, Pi.add_apply]
  refine ⟨?_, ?_, ?_⟩
  · convert! (f1.mul g2).sub (f2.mul g1) using 1; ring
  · convert! (f2.mul g0).sub (f0.mul g2) using 1; ring
  · convert! (f0.mul g1).sub (f1.mul g0) using 1; ring

theorem hasDerivAt_dot {f g : ℝ → V3} {f' g' : V3} {t : ℝ} (hf : HasDerivAt f f' t) (hg : HasDerivAt g g' t) :
    HasDerivAt (fun s => f s ⬝ᵥ g s) (f' ⬝ᵥ g t + f t ⬝ᵥ g') t := by
  obtain ⟨f0, f1, f2⟩ := hasDerivAt3.1 hf
  obtain ⟨g0, g1, g2⟩ := hasDerivAt3.1 hg
  simp only [dot3]
  convert! ((f0.mul g0).add (f1.mul g1)).add (f2.mul g2) using 1; ring

theorem mulVec_sum (R : M3) (x : V3) : R *ᵥ x = x 0 • (R *ᵥ ![1, 0, 0]) + x 1 • (R *ᵥ ![0, 1, 0]) + x 2 • (R *ᵥ ![0, 0, 1]) := by
  apply ext3 <;> simp [mulVec3] <;> ring

theorem Turns.mulVec {R : ℝ → M3} {ω : ℝ → V3} (h : Turns R ω) {x : ℝ → V3} {x' : V3} {t : ℝ} (hx : HasDerivAt x x' t) :
    HasDerivAt (fun t => R t *ᵥ x t) (ω t ⨯₃ (R t *ᵥ x t) + R t *ᵥ x') t := by
  obtain ⟨x0, x1, x2⟩ := hasDerivAt3.1 hx
  have hs : (fun t => R t *ᵥ x t) = fun t => x t 0 • (R t *ᵥ ![1, 0, 0]) + x t 1 • (R t *ᵥ ![0, 1, 0]) + x t 2 • (R t *ᵥ ![0, 0, 1]) := by
    funext t; exact mulVec_sum _ _
  rw [hs]
  have := ((x0.smul (h t ![1, 0, 0])).add (x1.smul (h t ![0, 1, 0]))).add (x2.smul (h t ![0, 0, 1]))
  convert! this using 1
  rw [mulVec_sum (R t) (x t), mulVec_sum (R t) x']
  simp only [cross_add, cross_smul]
  abel

theorem transpose_mulVec_eq (R : M3) (x : V3) : Rᵀ *ᵥ x = ![(R *ᵥ ![1, 0, 0]) ⬝ᵥ x, (R *ᵥ ![0, 1, 0]) ⬝ᵥ x, (R *ᵥ ![0, 0, 1]) ⬝ᵥ x] := by
  apply ext3 <;> simp [mulVec3, dot3]

theorem cross_dot_left (a b c : V3) : (a ⨯₃ b) ⬝ᵥ c = -(b ⬝ᵥ (a ⨯₃ c)) := by
  simp only [dot3, cross0, cross1, cross2]; ring

theorem Turns.transpose_mulVec {R : ℝ → M3} {ω : ℝ → V3} (h : Turns R ω) {x : ℝ → V3} {x' : V3} {t : ℝ} (hx : HasDerivAt x x' t) :
    HasDerivAt (fun t => (R t)ᵀ *ᵥ x t) ((R t)ᵀ *ᵥ (x' - ω t ⨯₃ x t)) t := by
  have hs : (fun t => (R t)ᵀ *ᵥ x t) = fun t => ![(R t *ᵥ ![1, 0, 0]) ⬝ᵥ x t, (R t *ᵥ ![0, 1, 0]) ⬝ᵥ x t, (R t *ᵥ ![0, 0, 1]) ⬝ᵥ x t] := by
    funext t; exact transpose_mulVec_eq _ _
  rw [hs, transpose_mulVec_eq, hasDerivAt3]
  refine ⟨?_, ?_, ?_⟩
  · convert! hasDerivAt_dot (h t ![1, 0, 0]) hx using 1
    simp only [cons_val_zero, dotProduct_sub]; rw [cross_dot_left]; ring
  · convert! hasDerivAt_dot (h t ![0, 1, 0]) hx using 1
    simp only [cons_val_one, cons_val_zero, dotProduct_sub]; rw [cross_dot_left]; ring
  · convert! hasDerivAt_dot (h t ![0, 0, 1]) hx using 1
    simp only [cons_val, dotProduct_sub]; rw [cross_dot_left]; ring

/-- The transpose turns with the opposite angular velocity, seen in its frame. -/
theorem Turns.transpose {R : ℝ → M3} {ω : ℝ → V3} (hR : ∀ t, IsRot (R t)) (h : Turns R ω) :
    Turns (fun t => (R t)ᵀ) (fun t => -((R t)ᵀ *ᵥ ω t)) := by
  intro t w
  have := h.transpose_mulVec (hasDerivAt_const t w)
  convert! this using 1
  rw [neg_cross, ← (hR t).transpose.cross, zero_sub, mulVec_neg]

end StateObs.Rot
