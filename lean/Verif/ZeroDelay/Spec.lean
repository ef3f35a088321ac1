import Verif.ZeroDelay.Model
/-!
# What a zero-delay observer does

A filter (of the Kalman kind) is given by its one-step function `f`; an observer is specified by the recursion `iter`.
-/

namespace StateObs.Obs
variable {σ X Y U : Type}

/-- The recursion that a filter is documented to perform: correct the state with `y_{k+1}`, then with `y_{k+2}`, ...
`yAt`, `uAt` give the outcome of looking up the measurement or input of a time. -/
def iter (f : σ → X → Int → Y → Res U → Res U → Res (σ × X)) (yAt : Int → Res Y) (uAt : Int → Res U) :
    Nat → σ → X → Int → Res (σ × X)
  | 0, st, x, _ => .ok (st, x)
  | n + 1, st, x, k => do
    let y ← yAt (k + 1)
    let (st, x) ← f st x k y (uAt k) (uAt (k + 1))
    iter f yAt uAt n st x (k + 1)

end StateObs.Obs
