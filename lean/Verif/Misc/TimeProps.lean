import Verif.Misc.TimeModel
/-!
# Property C69, continued: the difference of two times
-/

namespace StateObs.Misc

/-- The nanoseconds from the origin of the times. -/
def TimeSpec.total (t : TimeSpec) : Int := t.sec * 1000000000 + t.nsec

/-- A time as the clock gives it: the nanoseconds are less than a second. -/
def TimeSpec.Clock (t : TimeSpec) : Prop := 0 ≤ t.nsec ∧ t.nsec < 1000000000

/-- **C69** The difference of two times is the time between them, as the clock would give it; it is the only one, and the number of seconds is not negative when the times are in
order. -/
theorem C69_timeDiff {start stop : TimeSpec} (h1 : start.Clock) (h2 : stop.Clock) :
    (timeDiff start stop).Clock ∧ (timeDiff start stop).total = stop.total - start.total ∧ (start.total ≤ stop.total → 0 ≤ (timeDiff start stop).sec) ∧
      ∀ d : TimeSpec, d.Clock → d.total = stop.total - start.total → d = timeDiff start stop := by
  obtain ⟨a, b⟩ := h1
  obtain ⟨c, d⟩ := h2
  unfold timeDiff TimeSpec.Clock TimeSpec.total
  refine ⟨?_, ?_, ?_, ?_⟩
  · split <;> constructor <;> simp only <;> omega
  · split <;> simp only <;> omega
  · split <;> simp only <;> omega
  · rintro ⟨s, n⟩ ⟨h3, h4⟩ h5
    simp only at h3 h4 h5
    split <;> rw [TimeSpec.mk.injEq] <;> constructor <;> omega

example : (⟨3, 999999999⟩ : TimeSpec).Clock ∧ (⟨5, 1⟩ : TimeSpec).Clock ∧ timeDiff ⟨3, 999999999⟩ ⟨5, 1⟩ = ⟨1, 2⟩ := ⟨⟨by decide, by decide⟩, ⟨by decide, by decide⟩, rfl⟩

end StateObs.Misc
