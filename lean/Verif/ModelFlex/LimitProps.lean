import Verif.ModelFlex.Config
import Verif.ModelFlex.CovLemmas
import Verif.Elastic.JacLemmas
/-!
# C95: limits of the contact forces and torques

`t.lastX` after a call of `getFlexibilityVector()` is the vector it returned. The components of the state are: 12 to 14 force of the first contact, 15 to 17 its torque, 18 to 20 force of the
second contact, 21 to 23 its torque.
-/

namespace StateObs.ModelFlex
open StateObs KF Imu Rot Kine Matrix Obs
open StateObs.Elastic (at1)

theorem setState_other {f g : Filter} {x : Fin 35 → ℝ} {k : Int} (h : Obs.setState (cfg f) f ⟨35, x⟩ k = .ok g) (x' : Fin 35 → ℝ) :
    ∃ g', Obs.setState (cfg f) f ⟨35, x'⟩ k = .ok g' ∧ g.x = some (⟨35, x⟩, k) ∧ g'.x = some (⟨35, x'⟩, k) ∧ g'.st = g.st := by
  have hx : (cfg f).okX ⟨35, x'⟩ = (cfg f).okX ⟨35, x⟩ := rfl
  by_cases ho : (cfg f).okX ⟨35, x⟩ = true
  · simp only [Obs.setState, hx, ho, Res.assert_true, Res.ok_bind, getCurrentTime, lt_irrefl, if_false, Res.ok.injEq, exists_eq_left'] at h ⊢
    subst h
    split_ifs <;> exact ⟨rfl, rfl, rfl⟩
  · simp [Obs.setState, ho] at h

/-- With other limits the same vector is saturated. -/
theorem getVector_limits {s t : Est} (hi : Inv s) (hon : s.on = true) (hy : s.ekf.y.v ≠ []) (h : s.getFlexibilityVector = .ok t) :
    ∃ z : Fin 35 → ℝ, t.lastX = ⟨35, s.saturate z⟩ ∧ ∀ (T F : V3) (b : Bool), ∃ t', ({ s with limT := T, limF := F, limOn := b } : Est).getFlexibilityVector = .ok t' ∧
      t'.lastX = ⟨35, ({ s with limT := T, limF := F, limOn := b } : Est).saturate z⟩ ∧ t'.ekf.st.pr = t.ekf.st.pr := by
  rcases hi.f.y with hy0 | ⟨w, hy1⟩
  · exact absurd hy0 hy
  have hsz : s.ekf.y.size > 0 := by rw [hy1]; simp [IArr.size]
  rw [Est.getFlexibilityVector, if_pos hon, if_pos hsz] at h
  simp only [Res.bind_eq_ok] at h
  obtain ⟨k, hk, t0, ht0, f, hf, f2, hf2, xx, hxx, hb⟩ := h
  split_ifs at hb with hsize
  simp only [Res.bind_eq_ok] at hb
  obtain ⟨o, ho, t1, ht1, f3, hf3, hb⟩ := hb
  cases hb
  refine ⟨_, rfl, fun T F b => ?_⟩
  obtain ⟨f4, h4, h5, h6, h7⟩ := setState_other hf3 (({ s with limT := T, limF := F, limOn := b } : Est).saturate (setSeg (fun i => xx.val (Fin.cast hsize.symm i)) Elastic.iOri o))
  refine ⟨{ s with limT := T, limF := F, limOn := b, ekf := f4, k := k, lastX := _ }, ?_, rfl, by rw [h7]⟩
  · rw [Est.getFlexibilityVector, if_pos hon, if_pos hsz]
    simp only [Res.bind_eq_ok]
    refine ⟨k, hk, t0, ht0, f, hf, f2, hf2, xx, hxx, ?_⟩
    rw [dif_pos hsize]
    simp only [Res.bind_eq_ok]
    exact ⟨o, ho, t1, ht1, f4, h4, rfl⟩

theorem saturate_at (s : Est) (z : Fin 35 → ℝ) (i : Fin 35) : s.saturate z i =
    if s.limOn = true then
      (if h : 12 ≤ i.val ∧ i.val < 15 then clamp (s.limF ⟨i.val - 12, by omega⟩) (z i)
        else if h : 18 ≤ i.val ∧ i.val < 21 then clamp (s.limT ⟨i.val - 18, by omega⟩) (z i) else z i)
    else z i := by
  unfold Est.saturate
  split_ifs with h1 h2 h3
  · have e : setSeg (setSeg z (12 + 6) fun i : Fin 3 => clamp (s.limT i) (seg 3 z (12 + 6) i)) 12 (fun i : Fin 3 => clamp (s.limF i) (seg 3 z 12 i)) i =
      clamp (s.limF ⟨i.val - 12, by omega⟩) (seg 3 z 12 ⟨i.val - 12, by omega⟩) := dif_pos (by omega)
    refine e.trans ?_
    unfold seg
    simp only [show 12 + (i.val - 12) = i.val by omega, i.2, dif_pos]
  · have e : setSeg (setSeg z (12 + 6) fun i : Fin 3 => clamp (s.limT i) (seg 3 z (12 + 6) i)) 12 (fun i : Fin 3 => clamp (s.limF i) (seg 3 z 12 i)) i =
      setSeg z (12 + 6) (fun i : Fin 3 => clamp (s.limT i) (seg 3 z (12 + 6) i)) i := dif_neg (by omega)
    refine (e.trans (dif_pos (by omega))).trans ?_
    unfold seg
    simp only [show 12 + 6 + (i.val - (12 + 6)) = i.val by omega, i.2, dif_pos, show 12 + 6 = 18 from rfl]
  · have e : setSeg (setSeg z (12 + 6) fun i : Fin 3 => clamp (s.limT i) (seg 3 z (12 + 6) i)) 12 (fun i : Fin 3 => clamp (s.limF i) (seg 3 z 12 i)) i =
      setSeg z (12 + 6) (fun i : Fin 3 => clamp (s.limT i) (seg 3 z (12 + 6) i)) i := dif_neg (by omega)
    exact e.trans (dif_neg (by omega))
  · rfl

theorem abs_clamp {l v : ℝ} (h : 0 ≤ l) : |clamp l v| ≤ l := by
  unfold clamp
  rw [abs_le]
  refine ⟨le_max_right _ _, max_le (min_le_right _ _) (by linarith)⟩

theorem clamp_id {l v : ℝ} (h : |v| ≤ l) : clamp l v = v := by
  unfold clamp
  rw [abs_le] at h
  rw [min_eq_left h.2, max_eq_left h.1]

/-- A measurement waits. -/
def Waits (s : Est) : Prop := s.ekf.y.v ≠ []

/-! ## The properties -/

/-- When the limits are on, the estimated force of the first contact is within the limit of the forces; it is the value estimated without limits when that one is within the limit. -/
theorem C95_force {mem : ℕ → ℕ → ℕ → ℝ} {dt : ℝ} {ops : List Op} {s t : Est} (h : run mem dt ops = .ok s) (hon : (Config.of ops).on = true) (hl : (Config.of ops).limit = true) (hw : Waits s)
    (ht : exec s .getFlexibilityVector = .ok t) (i : Fin 3) (h0 : 0 ≤ (Config.of ops).forces i) :
    |at1 t.lastX (12 + i)| ≤ (Config.of ops).forces i ∧
      ∃ s' t', exec s (.setLimitOn false) = .ok s' ∧ exec s' .getFlexibilityVector = .ok t' ∧
        (|at1 t'.lastX (12 + i)| ≤ (Config.of ops).forces i → at1 t.lastX (12 + i) = at1 t'.lastX (12 + i)) := by
  have hi := inv_run h
  have hc := has_run h
  obtain ⟨z, hz, ho⟩ := getVector_limits hi (by rw [hc.on, hon]) hw ht
  have e : at1 t.lastX (12 + i) = clamp ((Config.of ops).forces i) (z ⟨12 + i, by omega⟩) := by
    rw [hz, Elastic.at1_mk _ _ (show 12 + i.val < 35 by omega), saturate_at, if_pos (by rw [hc.limit, hl]), dif_pos (by dsimp only; omega), hc.forces]
    simp
  obtain ⟨t', ht', hz', -⟩ := ho s.limT s.limF false
  refine ⟨by rw [e]; exact abs_clamp h0, _, t', rfl, ht', ?_⟩
  have e' : at1 t'.lastX (12 + i) = z ⟨12 + i, by omega⟩ := by
    rw [hz', Elastic.at1_mk _ _ (show 12 + i.val < 35 by omega), saturate_at, if_neg (by simp)]
  intro hle
  rw [e, e']
  rw [e'] at hle
  exact clamp_id hle

/-- The estimated force of the second contact is bounded by the limit of the *torques*; the limit of the forces has no effect on it. -/
theorem C95_second_false {mem : ℕ → ℕ → ℕ → ℝ} {dt : ℝ} {ops : List Op} {s t : Est} (h : run mem dt ops = .ok s) (hon : (Config.of ops).on = true) (hl : (Config.of ops).limit = true) (hw : Waits s)
    (ht : exec s .getFlexibilityVector = .ok t) (i : Fin 3) :
    (0 ≤ (Config.of ops).torques i → |at1 t.lastX (18 + i)| ≤ (Config.of ops).torques i) ∧
      ∀ v, ∃ s' t', exec s (.setForcesLimit v) = .ok s' ∧ exec s' .getFlexibilityVector = .ok t' ∧ at1 t'.lastX (18 + i) = at1 t.lastX (18 + i) := by
  have hi := inv_run h
  have hc := has_run h
  obtain ⟨z, hz, ho⟩ := getVector_limits hi (by rw [hc.on, hon]) hw ht
  have e : at1 t.lastX (18 + i) = clamp ((Config.of ops).torques i) (z ⟨18 + i, by omega⟩) := by
    rw [hz, Elastic.at1_mk _ _ (show 18 + i.val < 35 by omega), saturate_at, if_pos (by rw [hc.limit, hl]), dif_neg (by dsimp only; omega), dif_pos (by dsimp only; omega), hc.torques]
    simp
  refine ⟨fun h0 => by rw [e]; exact abs_clamp h0, fun v => ?_⟩
  obtain ⟨t', ht', hz', -⟩ := ho s.limT v s.limOn
  refine ⟨_, t', rfl, ht', ?_⟩
  rw [e, hz', Elastic.at1_mk _ _ (show 18 + i.val < 35 by omega), saturate_at, if_pos (by rw [← hl, ← hc.limit]), dif_neg (by dsimp only; omega), dif_pos (by dsimp only; omega)]
  simp only [add_tsub_cancel_left, hc.torques]

/-- The estimated torques of both contacts, as well as everything else in the state but the two forces, do not depend on the limits: with any limits the estimation returns the same. In particular a
torque that is not null exceeds the limits below its absolute value. -/
theorem C95_torque_false {mem : ℕ → ℕ → ℕ → ℝ} {dt : ℝ} {ops : List Op} {s t : Est} (h : run mem dt ops = .ok s) (hon : (Config.of ops).on = true) (hw : Waits s)
    (ht : exec s .getFlexibilityVector = .ok t) (T F : V3) (b : Bool) :
    ∃ s1 s2 s' t', exec s (.setTorquesLimit T) = .ok s1 ∧ exec s1 (.setForcesLimit F) = .ok s2 ∧ exec s2 (.setLimitOn b) = .ok s' ∧ exec s' .getFlexibilityVector = .ok t' ∧
      t'.ekf.st.pr = t.ekf.st.pr ∧ ∀ i : ℕ, ¬ (12 ≤ i ∧ i < 15) → ¬ (18 ≤ i ∧ i < 21) → at1 t'.lastX i = at1 t.lastX i := by
  have hi := inv_run h
  have hc := has_run h
  obtain ⟨z, hz, ho⟩ := getVector_limits hi (by rw [hc.on, hon]) hw ht
  obtain ⟨t', ht', hz', hp⟩ := ho T F b
  refine ⟨_, _, _, t', rfl, rfl, rfl, ht', hp, fun i h1 h2 => ?_⟩
  rw [hz, hz']
  unfold Elastic.at1
  split_ifs with h3
  · show Est.saturate _ z ⟨i, h3⟩ = Est.saturate _ z ⟨i, h3⟩
    rw [saturate_at, saturate_at]
    simp only [dif_neg h1, dif_neg h2, ite_self]
  · rfl

end StateObs.ModelFlex
