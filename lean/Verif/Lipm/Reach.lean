import Verif.Lipm.Spec
import Verif.Lipm.Lemmas
/-!
# Reachable states of the LIPM estimator
-/

namespace StateObs.Lipm
open StateObs Matrix KF KFSpec Blocks

/-- The members that follow the configuration whatever is called. -/
structure Shape (v : View) (c : Conf) : Prop where
  omega0 : v.omega0 = c.omega0
  dt : v.dt = c.dt
  zmpStd : v.zmpErrorStd = c.zmpStd
  limit : v.biasLimit = c.limit
  zmp : v.previousZmp = c.zmp
  ori : v.previousOrientation = c.ori
  A : ∃ ρ, v.A = blk (dblToDiag (1 + c.omega0 * c.dt)) 0 0 ρ
  B : v.B = colBlk (dblToDiag (-c.omega0 * c.dt)) 0
  C : v.C = rowBlk 1 1

theorem View.update_eq {v v' : View} (h : v.update = .ok v') : ∃ x, v' = { v.estimate with x := x } := by
  unfold View.update at h
  split_ifs at h <;> cases h
  · exact ⟨_, rfl⟩
  · exact ⟨_, rfl⟩

theorem Shape.update {v v' : View} {c : Conf} (h : Shape v c) (hu : v.update = .ok v') : Shape v' c := by
  obtain ⟨x, rfl⟩ := View.update_eq hu
  exact ⟨h.1, h.2, h.3, h.4, h.5, h.6, h.7, h.8, h.9⟩

theorem Shape.updateMatrices {v : View} {c : Conf} (h1 : v.omega0 = c.omega0) (h2 : v.dt = c.dt) (h3 : v.zmpErrorStd = c.zmpStd)
    (h4 : v.biasLimit = c.limit) (h5 : v.previousZmp = c.zmp) (h6 : v.previousOrientation = c.ori) (h7 : tr v.A = 0 ∧ bl v.A = 0)
    (h8 : v.C = rowBlk 1 1) : Shape v.updateMatrices c := by
  refine ⟨h1, h2, h3, h4, h5, h6, ⟨br v.A, ?_⟩, ?_, h8⟩
  · show blk _ _ _ _ = _
    rw [h1, h2, h7.1, h7.2]
  · show colBlk _ _ = _
    rw [h1, h2]

theorem Shape.trbl {v : View} {c : Conf} (h : Shape v c) : tr v.A = 0 ∧ bl v.A = 0 := by
  obtain ⟨ρ, h⟩ := h.A
  rw [h]; simp

theorem Shape.exec {v v' : View} {c : Conf} (h : Shape v c) (o : Op) (he : v.exec o = .ok v') : Shape v' (c.after o) := by
  cases o
  case resetWithMeasurements dcm zmp yaw w b bu => cases he; exact ⟨h.1, h.2, h.3, h.4, rfl, rfl, h.7, h.8, h.9⟩
  case setLipmNaturalFrequency w => cases he; exact Shape.updateMatrices rfl h.2 h.3 h.4 h.5 h.6 h.trbl h.9
  case setSamplingTime w => cases he; exact Shape.updateMatrices h.1 rfl h.3 h.4 h.5 h.6 h.trbl h.9
  case setZmpMeasureErrorStd w => cases he; exact Shape.updateMatrices h.1 h.2 rfl h.4 h.5 h.6 h.trbl h.9
  case setDcmMeasureErrorStd w => cases he; exact ⟨h.1, h.2, h.3, h.4, h.5, h.6, h.7, h.8, h.9⟩
  case setBiasDriftPerSecond a => cases he; exact ⟨h.1, h.2, h.3, h.4, h.5, h.6, h.7, h.8, h.9⟩
  case setBiasLimit l => cases he; exact ⟨h.1, h.2, h.3, rfl, h.5, h.6, h.7, h.8, h.9⟩
  case setBias b => cases he; exact ⟨h.1, h.2, h.3, h.4, h.5, h.6, h.7, h.8, h.9⟩
  case setUnbiasedDCM b => cases he; exact ⟨h.1, h.2, h.3, h.4, h.5, h.6, h.7, h.8, h.9⟩
  case setBias2 b u => cases he; exact ⟨h.1, h.2, h.3, h.4, h.5, h.6, h.7, h.8, h.9⟩
  case setUnbiasedDCM2 b u => cases he; exact ⟨h.1, h.2, h.3, h.4, h.5, h.6, h.7, h.8, h.9⟩
  case update => exact h.update he
  case setInputs dcm zmp R =>
    simp only [View.exec, Res.bind_eq_ok] at he
    obtain ⟨v1, h1, h2⟩ := he
    have hs : Shape v1 c := by
      split_ifs at h1
      · exact h.update h1
      · cases h1; exact h
    cases h2
    obtain ⟨ρ, hA⟩ := hs.7
    refine ⟨hs.1, hs.2, hs.3, hs.4, rfl, rfl, ⟨R * v1.previousOrientationᵀ, ?_⟩, hs.8, hs.9⟩
    show blk (tl v1.A) (tr v1.A) (bl v1.A) _ = _
    rw [hA]; simp [Conf.after]

theorem shape_new (c : Conf) (hc : c.ori = 1) (dcm bias dcmUnc biasUnc : Fin 2 → ℝ) :
    Shape (viewNew c.dt c.omega0 c.driftStd c.dcmStd c.zmpStd c.limit c.zmp dcm bias dcmUnc biasUnc) c :=
  ⟨rfl, rfl, rfl, rfl, rfl, hc.symm, ⟨1, rfl⟩, rfl, rfl⟩

theorem Shape.run {v v' : View} {c : Conf} (h : Shape v c) (ops : List Op) (he : ops.foldlM View.exec v = .ok v') :
    Shape v' (c.afterAll ops) := by
  induction ops generalizing v c with
  | nil => cases he; exact h
  | cons o os ih =>
    rw [List.foldlM_cons] at he
    obtain ⟨v1, h1, h2⟩ := Res.bind_eq_ok.1 he
    exact ih (h.exec o h1) h2

theorem rot_after {c : Conf} (h : c.oriᵀ * c.ori = 1) {o : Op} (ho : o.Rot) : (c.after o).oriᵀ * (c.after o).ori = 1 := by
  cases o <;> first | exact h | exact ho

theorem rot_afterAll {c : Conf} (h : c.oriᵀ * c.ori = 1) {ops : List Op} (ho : ∀ o ∈ ops, o.Rot) :
    (c.afterAll ops).oriᵀ * (c.afterAll ops).ori = 1 := by
  induction ops generalizing c with
  | nil => exact h
  | cons o os ih => exact ih (rot_after h (ho o (by simp))) fun o' h' => ho o' (by simp [h'])

/-- What is known of a state reached by a history. -/
theorem reach {c : Conf} (hc : c.ori = 1) (hstd : c.dcmStd ≠ 0) {dcm bias dcmUnc biasUnc : Fin 2 → ℝ} {ops : List Op} {s : Est}
    (h : createRun c dcm bias dcmUnc biasUnc ops = .ok s) : ∃ v : View, Rep s v ∧ v.Good ∧ Shape v (c.afterAll ops) ∧
      ops.foldlM View.exec (viewNew c.dt c.omega0 c.driftStd c.dcmStd c.zmpStd c.limit c.zmp dcm bias dcmUnc biasUnc) = .ok v := by
  obtain ⟨s0, h1, h2⟩ := rep_new c.dt c.omega0 c.driftStd c.dcmStd c.zmpStd c.limit c.zmp dcm bias dcmUnc biasUnc
  simp only [createRun, create, h1, Res.ok_bind] at h
  rcases h2.run (good_new _ _ _ _ _ _ _ _ _ _ _ hstd) ops with ⟨s', v', h3, h4, h5, h6⟩ | ⟨h3, h4⟩
  · rw [h3] at h
    cases h
    exact ⟨v', h5, h6, (shape_new c hc dcm bias dcmUnc biasUnc).run ops h4, h4⟩
  · rw [h3] at h; cases h

theorem clampScalar_abs (x : ℝ) {l : ℝ} (hl : 0 < l) : |clampScalar x l| ≤ l := by
  unfold clampScalar clampScalar3
  split_ifs with h1 h2
  · rw [abs_of_pos hl]
  · rw [abs_neg, abs_of_pos hl]
  · rw [abs_le]; constructor <;> linarith

theorem clampScalar_eq {x l : ℝ} (hl : 0 < l) : clampScalar x l = x ↔ |x| ≤ l := by
  refine ⟨fun h => h ▸ clampScalar_abs x hl, fun h => ?_⟩
  rw [abs_le] at h
  unfold clampScalar clampScalar3
  rw [if_neg (by linarith), if_neg (by linarith)]

/-- `update` with no positive limit. -/
theorem Rep.update_free {s : Est} {v : View} (h : Rep s v) (hg : v.Good) (hl : ∀ i, v.biasLimit i ≤ 0) :
    ∃ s', Lipm.update s = .ok s' ∧ Rep s' v.estimate := by
  have hc : ¬ (v.biasLimit 0 > 0 ∨ v.biasLimit 1 > 0) := by
    have h0 := hl 0
    have h1 := hl 1
    rintro (h | h) <;> linarith
  rcases h.update hg with ⟨s', v', h1, h2, h3⟩ | ⟨_, h2⟩
  · unfold View.update at h2
    rw [if_neg hc] at h2
    cases h2
    exact ⟨s', h1, h3⟩
  · unfold View.update at h2
    rw [if_neg hc] at h2
    cases h2

/-- `update` with two positive limits. -/
theorem Rep.update_limited {s : Est} {v : View} (h : Rep s v) (hg : v.Good) (hl : ∀ i, 0 < v.biasLimit i) :
    ∃ s', Lipm.update s = .ok s' ∧ Rep s' v.estimate.clamp := by
  rcases h.update hg with ⟨s', v', h1, h2, h3⟩ | ⟨_, h2⟩
  · unfold View.update at h2
    rw [if_pos (Or.inl (hl 0)), if_pos ⟨hl 0, hl 1⟩] at h2
    cases h2
    exact ⟨s', h1, h3⟩
  · unfold View.update at h2
    rw [if_pos (Or.inl (hl 0)), if_pos ⟨hl 0, hl 1⟩] at h2
    cases h2

end StateObs.Lipm
