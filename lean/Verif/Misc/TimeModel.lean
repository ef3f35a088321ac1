/-!
# The difference of two times

`diff`, src/model-base-ekf-flex-estimator-imu.cpp 332-345. The fields of `timespec` are integers; overflow is not modelled.
-/

namespace StateObs.Misc

/-- `timespec`: seconds and nanoseconds. -/
structure TimeSpec where
  sec : Int
  nsec : Int

/-- `diff(start, end)`, model-base-ekf-flex-estimator-imu.cpp 332-345. -/
def timeDiff (start stop : TimeSpec) : TimeSpec :=
  if stop.nsec - start.nsec < 0 then ⟨stop.sec - start.sec - 1, 1000000000 + stop.nsec - start.nsec⟩
  else ⟨stop.sec - start.sec, stop.nsec - start.nsec⟩

end StateObs.Misc
