import Verif.KO.Settings
import Verif.KO.ClientProps
import Verif.KO.MeasLemmas
/-!
# C105: every parameter has the value that was given to it last
-/

namespace StateObs.KO
open StateObs Matrix Rot Kine KF
open Observer

variable {nc ni : ℕ} {o : Observer}

/-- A call of `setKinematicsInitCovarianceDefault` returns only for a matrix 12×12. -/
theorem kineInit_ok {B : DMat} {o o' : Observer} (h : o.setKinematicsInitCovarianceDefault B = .ok o') : ∃ M : M12, dm M = B ∧ o' = { o with kineInit := M } := by
  unfold Observer.setKinematicsInitCovarianceDefault at h
  split_ifs at h with hd
  cases h
  obtain ⟨r, c, B⟩ := B
  obtain ⟨h1, h2⟩ := hd
  dsimp only at h1 h2
  subst h1 h2
  exact ⟨_, rfl, rfl⟩

open Classical in
/-- The matrix 12×12 that a matrix of dynamic size is (if it is one). -/
noncomputable def fixed12 (B : DMat) : Option M12 := if h : ∃ M : M12, dm M = B then some h.choose else none

theorem fixed12_dm (M : M12) : fixed12 (dm M) = some M := by
  have h : ∃ N : M12, dm N = dm M := ⟨M, rfl⟩
  rw [fixed12, dif_pos h]
  have := h.choose_spec
  simp only [dm] at this
  injection this with _ _ h3
  exact congrArg some h3

theorem last_none {α : Type} (a : α) (l : List Op) : last (fun _ => none) a l = a := by
  induction l with
  | nil => rfl
  | cons _ _ ih => exact ih

/-- **C105** After any sequence of calls, each parameter has the value of the last call of its own setter, or the one of the constructor if there was none: the
sampling time, the mass, the two parts of the additional wrench, the option of the unmodeled wrench, the way the Jacobians are computed and the step of the
differences, the default covariances of the sensors (that `resetSensorsDefaultCovMat` sets too), the default initial covariances; the default gains of the
contacts and the default covariances of the process noise never change. (The two other options: C59.) -/
theorem C105_settings {l : List Op} (h : Reachable nc ni l o) :
    o.dt = last (fun op => match op with | .setSamplingTime dt => some dt | _ => none) 1e-6 l ∧
    o.mass = last (fun op => match op with | .setMass m => some m | _ => none) 50 l ∧
    o.addForce = last (fun op => match op with | .setAdditionalWrench f _ => some f | _ => none) 0 l ∧
    o.addTorque = last (fun op => match op with | .setAdditionalWrench _ t => some t | _ => none) 0 l ∧
    o.withUnmodeledWrench = last (fun op => match op with | .setWithUnmodeledWrench b => some b | _ => none) false l ∧
    o.finiteDiff = last (fun op => match op with | .useFiniteDifferencesJacobians b => some b | _ => none) true l ∧
    o.dx = last (fun op => match op with | .setFiniteDifferenceStep v => some v | _ => none) ⟨18 + ni * 3 + 12 * nc, fun _ => 1e-6⟩ l ∧
    o.accCov = last (fun op => match op with | .setIMUDefaultCovarianceMatrix a _ => some a | .resetSensorsDefaultCovMat => some ((1e-4 : ℝ) • 1) | _ => none) ((1e-4 : ℝ) • 1) l ∧
    o.gyroCov = last (fun op => match op with | .setIMUDefaultCovarianceMatrix _ g => some g | .resetSensorsDefaultCovMat => some ((1e-8 : ℝ) • 1) | _ => none) ((1e-8 : ℝ) • 1) l ∧
    o.wrenchCov = last (fun op => match op with | .setContactWrenchSensorDefaultCovarianceMatrix c => some c | .resetSensorsDefaultCovMat => some (diag6 ((1e-8 : ℝ) • 1) ((1e-10 : ℝ) • 1)) | _ => none) (diag6 ((1e-8 : ℝ) • 1) ((1e-10 : ℝ) • 1)) l ∧
    o.absCov = last (fun op => match op with | .setAbsolutePoseSensorDefaultCovarianceMatrix c => some c | .resetSensorsDefaultCovMat => some (diag6 ((1e-4 : ℝ) • 1) ((1e-3 : ℝ) • 1)) | _ => none) (diag6 ((1e-4 : ℝ) • 1) ((1e-3 : ℝ) • 1)) l ∧
    o.gyroBiasInit = last (fun op => match op with | .setGyroBiasInitCovarianceDefault B => some B | _ => none) ((1e-10 : ℝ) • 1) l ∧
    o.unmodeledInit = last (fun op => match op with | .setUnmodeledWrenchInitCovMatDefault B => some B | _ => none) ((1e100 : ℝ) • 1) l ∧
    o.contactInit = last (fun op => match op with | .setContactInitCovMatDefault B => some B | _ => none) (diag12 ((1e-8 : ℝ) • 1) ((1e-8 : ℝ) • 1) ((1e100 : ℝ) • 1) ((1e100 : ℝ) • 1)) l ∧
    o.kineInit = last (fun op => match op with | .setKinematicsInitCovarianceDefault B => fixed12 B | _ => none)
      (diag12 ((1e-4 : ℝ) • 1) ((1e-4 : ℝ) • 1) ((1e-6 : ℝ) • 1) ((1e-6 : ℝ) • 1)) l ∧
    o.viscoDefault = ⟨(40000 : ℝ) • 1, (120 : ℝ) • 1, (400 : ℝ) • 1, (12 : ℝ) • 1⟩ ∧ o.gyroBiasProc = (1e-12 : ℝ) • 1 ∧ o.unmodeledProc = (1e-8 : ℝ) • 1 ∧
    o.kineProc = diag12 ((1e-8 : ℝ) • 1) ((1e-8 : ℝ) • 1) ((1e-8 : ℝ) • 1) ((1e-8 : ℝ) • 1) ∧
    o.contactProc = diag12 ((1e-8 : ℝ) • 1) ((1e-8 : ℝ) • 1) ((1e100 : ℝ) • 1) ((1e100 : ℝ) • 1) := by
  refine ⟨?_, ?_, ?_, ?_, ?_, ?_, ?_, ?_, ?_, ?_, ?_, ?_, ?_, ?_, ?_, ?_, ?_, ?_, ?_, ?_⟩
  · exact last_reachable (·.dt) _ (fun op hp => by cases op <;> first | rfl | cases hp)
      (fun p p' op hp e => by
        cases op <;> first
          | cases hp; done
          | cases e; rfl
          | (obtain ⟨M, -, rfl⟩ := kineInit_ok e; rfl)) h
  · exact last_reachable (·.mass) _ (fun op hp => by cases op <;> first | rfl | cases hp)
      (fun p p' op hp e => by
        cases op <;> first
          | cases hp; done
          | cases e; rfl
          | (obtain ⟨M, -, rfl⟩ := kineInit_ok e; rfl)) h
  · exact last_reachable (·.addForce) _ (fun op hp => by cases op <;> first | rfl | cases hp)
      (fun p p' op hp e => by
        cases op <;> first
          | cases hp; done
          | cases e; rfl
          | (obtain ⟨M, -, rfl⟩ := kineInit_ok e; rfl)) h
  · exact last_reachable (·.addTorque) _ (fun op hp => by cases op <;> first | rfl | cases hp)
      (fun p p' op hp e => by
        cases op <;> first
          | cases hp; done
          | cases e; rfl
          | (obtain ⟨M, -, rfl⟩ := kineInit_ok e; rfl)) h
  · exact last_reachable (·.withUnmodeledWrench) _ (fun op hp => by cases op <;> first | rfl | cases hp)
      (fun p p' op hp e => by
        cases op <;> first
          | cases hp; done
          | cases e; rfl
          | (obtain ⟨M, -, rfl⟩ := kineInit_ok e; rfl)) h
  · exact last_reachable (·.finiteDiff) _ (fun op hp => by cases op <;> first | rfl | cases hp)
      (fun p p' op hp e => by
        cases op <;> first
          | cases hp; done
          | cases e; rfl
          | (obtain ⟨M, -, rfl⟩ := kineInit_ok e; rfl)) h
  · exact last_reachable (·.dx) _ (fun op hp => by cases op <;> first | rfl | cases hp)
      (fun p p' op hp e => by
        cases op <;> first
          | cases hp; done
          | cases e; rfl
          | (obtain ⟨M, -, rfl⟩ := kineInit_ok e; rfl)) h
  · exact last_reachable (·.accCov) _ (fun op hp => by cases op <;> first | rfl | cases hp)
      (fun p p' op hp e => by
        cases op <;> first
          | cases hp; done
          | cases e; rfl
          | (obtain ⟨M, -, rfl⟩ := kineInit_ok e; rfl)) h
  · exact last_reachable (·.gyroCov) _ (fun op hp => by cases op <;> first | rfl | cases hp)
      (fun p p' op hp e => by
        cases op <;> first
          | cases hp; done
          | cases e; rfl
          | (obtain ⟨M, -, rfl⟩ := kineInit_ok e; rfl)) h
  · exact last_reachable (·.wrenchCov) _ (fun op hp => by cases op <;> first | rfl | cases hp)
      (fun p p' op hp e => by
        cases op <;> first
          | cases hp; done
          | cases e; rfl
          | (obtain ⟨M, -, rfl⟩ := kineInit_ok e; rfl)) h
  · exact last_reachable (·.absCov) _ (fun op hp => by cases op <;> first | rfl | cases hp)
      (fun p p' op hp e => by
        cases op <;> first
          | cases hp; done
          | cases e; rfl
          | (obtain ⟨M, -, rfl⟩ := kineInit_ok e; rfl)) h
  · exact last_reachable (·.gyroBiasInit) _ (fun op hp => by cases op <;> first | rfl | cases hp)
      (fun p p' op hp e => by
        cases op <;> first
          | cases hp; done
          | cases e; rfl
          | (obtain ⟨M, -, rfl⟩ := kineInit_ok e; rfl)) h
  · exact last_reachable (·.unmodeledInit) _ (fun op hp => by cases op <;> first | rfl | cases hp)
      (fun p p' op hp e => by
        cases op <;> first
          | cases hp; done
          | cases e; rfl
          | (obtain ⟨M, -, rfl⟩ := kineInit_ok e; rfl)) h
  · exact last_reachable (·.contactInit) _ (fun op hp => by cases op <;> first | rfl | cases hp)
      (fun p p' op hp e => by
        cases op <;> first
          | cases hp; done
          | cases e; rfl
          | (obtain ⟨M, -, rfl⟩ := kineInit_ok e; rfl)) h
  · exact last_reachable (·.kineInit) _ (fun op hp => by cases op <;> first | rfl | cases hp)
      (fun p p' op hp e => by
        cases op <;> first
          | cases hp; done
          | cases e; rfl
          | (obtain ⟨M, rfl, rfl⟩ := kineInit_ok e; simp only [fixed12_dm]; rfl)) h
  · have := last_reachable (·.visco) (fun _ => none) (fun op hp => rfl)
      (fun p p' op hp e => by
        cases op <;> first
          | cases hp; done
          | cases e; rfl
          | (obtain ⟨M, -, rfl⟩ := kineInit_ok e; rfl)) h
    rw [last_none] at this
    exact this
  · have := last_reachable (·.gyroBiasProc) (fun _ => none) (fun op hp => rfl)
      (fun p p' op hp e => by
        cases op <;> first
          | cases hp; done
          | cases e; rfl
          | (obtain ⟨M, -, rfl⟩ := kineInit_ok e; rfl)) h
    rw [last_none] at this
    exact this
  · have := last_reachable (·.unmodeledProc) (fun _ => none) (fun op hp => rfl)
      (fun p p' op hp e => by
        cases op <;> first
          | cases hp; done
          | cases e; rfl
          | (obtain ⟨M, -, rfl⟩ := kineInit_ok e; rfl)) h
    rw [last_none] at this
    exact this
  · have := last_reachable (·.kineProc) (fun _ => none) (fun op hp => rfl)
      (fun p p' op hp e => by
        cases op <;> first
          | cases hp; done
          | cases e; rfl
          | (obtain ⟨M, -, rfl⟩ := kineInit_ok e; rfl)) h
    rw [last_none] at this
    exact this
  · have := last_reachable (·.contactProc) (fun _ => none) (fun op hp => rfl)
      (fun p p' op hp e => by
        cases op <;> first
          | cases hp; done
          | cases e; rfl
          | (obtain ⟨M, -, rfl⟩ := kineInit_ok e; rfl)) h
    rw [last_none] at this
    exact this

/-- The hypothesis of C105 holds for the client of C84, and the statement tells what the client gave: here the mass that it gives after the first one. -/
theorem C105_settings_example (hnc : 0 < nc) (hni : 0 < ni) :
    ∃ o, Reachable nc ni (exampleStart nc ni ++ [.setMass 20, .setMass 30, .setSamplingTime 0.005]) o ∧ o.mass = 30 ∧ o.dt = 0.005 := by
  obtain ⟨o0, h⟩ := (C53_constructible nc ni).2 hni
  obtain ⟨c, hr, -⟩ := C84_example (nc := nc) (ni := ni) hnc hni 0
  obtain ⟨o', e, -⟩ := C84_returns h hr
  simp only [List.replicate_zero, List.flatten_nil, List.append_nil] at e
  have hR : Reachable nc ni (exampleStart nc ni ++ [.setMass 20, .setMass 30, .setSamplingTime 0.005]) (((o'.setMass 20).setMass 30).setSamplingTime 0.005) :=
    ⟨o0, h, by rw [run_append]; exact ⟨o', e, rfl⟩⟩
  have key := C105_settings hR
  exact ⟨_, hR, key.2.1, key.1⟩

end StateObs.KO
