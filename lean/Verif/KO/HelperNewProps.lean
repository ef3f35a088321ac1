import Verif.KO.HelperProps
import Verif.KO.NoiseProps
/-! # Properties C133 and C135: a new observer, the sensors -/

namespace StateObs.KO
open StateObs KF
variable {R : Type}

/-- **C133** There is no noise after the construction, and getting it back after setting the other one gives none. -/
theorem C133_new (o : Observer) (n : NoiseObj R) :
    (Disturbed.ofNew o : Disturbed R).getProcessNoise = none ∧ (Disturbed.ofNew o : Disturbed R).getMeasurementNoise = none ∧
    ((Disturbed.ofNew o : Disturbed R).setProcessNoise n).getMeasurementNoise = none ∧
    ((Disturbed.ofNew o : Disturbed R).setMeasurementNoise n).getProcessNoise = none := ⟨rfl, rfl, rfl, rfl⟩

/-- **C135** The part returned for an IMU or a contact whose signals begin at the index 6 (the second sensor) is its own:
the six numbers from there on. -/
theorem C135_second_partial (v : DVec) (hv : 12 ≤ v.size) :
    (∀ m : IMU, m.measIndex = some 6 → ∃ w, m.extract v = .ok w ∧ w.size = 6 ∧
      ∀ j (h : j < w.size) (h' : 6 + j < v.size), w.val ⟨j, h⟩ = v.val ⟨6 + j, h'⟩) ∧
    (∀ c : Contact, c.measIndex = some 6 → ∃ w, c.extract v = .ok w ∧ w.size = 6 ∧
      ∀ j (h : j < w.size) (h' : 6 + j < v.size), w.val ⟨j, h⟩ = v.val ⟨6 + j, h'⟩) := by
  obtain ⟨w, e, h1, h2, -⟩ := (C135_extract_partial 6 6 v).1 hv
  refine ⟨fun m hm => ⟨w, ?_, h1, h2⟩, fun c hc => ⟨w, ?_, h1, h2⟩⟩
  · rw [IMU.extract, hm]; exact e
  · rw [Contact.extract, hc]; exact e

/-- Non-vacuity: a sensor with that index and twelve numbers. -/
example (m : IMU) : ∃ w, ({ m with measIndex := some 6 } : IMU).extract ⟨12, fun i => i.val⟩ = .ok w ∧ w.size = 6 := by
  obtain ⟨w, e, h, -⟩ := (C135_second_partial ⟨12, fun i => i.val⟩ le_rfl).1 { m with measIndex := some 6 } rfl
  exact ⟨w, e, h⟩

end StateObs.KO
