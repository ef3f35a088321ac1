import Verif.ModelFlex.CovLemmas
/-! # Calls that return -/

namespace StateObs.ModelFlex
open StateObs KF Imu Rot Kine Matrix Obs

theorem dvec_cast {m n : ℕ} (h : m = n) (y : Fin n → ℝ) : (⟨m, fun i => y (Fin.cast h i)⟩ : DVec) = ⟨n, y⟩ := by subst h; rfl

theorem setMeas_live {s : Est} (hi : Inv s) (w : Fin s.sys.measSize → ℝ) :
    exec s (.setMeasurement ⟨_, w⟩) = .ok { s with ekf := { s.ekf with y := ⟨s.k + 1, [⟨_, w⟩]⟩ } } := by
  obtain ⟨x, hx⟩ := hi.f.x
  have hm : s.ekf.st.m = s.sys.measSize := hi.f.m
  simp only [exec, Est.setMeasurement, Obs.setMeasurement, cfg, hm, DVec.hasSize_mk, decide_true, Res.assert_true, Res.ok_bind, hx]
  rcases hi.f.y with hy | ⟨y, hy⟩
  · simp [IArr.setValue, IArr.checkIndex, IArr.checkNext, IArr.size, hy]
  · rw [hy]
    simp [IArr.setValue, IArr.checkIndex, IArr.checkNext, IArr.size]

theorem setInput_live {s : Est} (hi : Inv s) (w : Fin (48 + 12 * s.sys.nb) → ℝ) :
    ∃ l, exec s (.setInput ⟨_, w⟩) = .ok { s with ekf := { s.ekf with u := ⟨s.k, ⟨_, w⟩ :: l⟩ } } := by
  obtain ⟨x, hx⟩ := hi.f.x
  have hp : s.ekf.st.p = 48 + 12 * s.sys.nb := hi.f.p
  simp only [exec, Est.setInput, Obs.setInput, cfg, hp, DVec.hasSize_mk, Res.assert_true, Res.ok_bind, hx, show 48 + 12 * s.sys.nb > 0 by omega, if_true]
  rcases hi.f.u with hu | ⟨a, hu⟩ | ⟨a, b, hu⟩
  · exact ⟨[], by simp [IArr.setValue, IArr.checkIndex, IArr.checkNext, IArr.size, hu]⟩
  · rw [hu]
    exact ⟨[], by simp [IArr.setValue, IArr.checkIndex, IArr.checkNext, IArr.size]⟩
  · rw [hu]
    exact ⟨[⟨_, b⟩], by simp [IArr.setValue, IArr.checkIndex, IArr.checkNext, IArr.size]⟩

theorem setMeasInput_live {s : Est} (hi : Inv s) (u : Fin (48 + 12 * s.sys.nb) → ℝ) :
    ∃ a : Fin (48 + 12 * s.sys.nb) → ℝ, exec s (.setMeasurementInput ⟨_, u⟩) = .ok { s with ekf := { s.ekf with u := ⟨s.k, [⟨_, a⟩, ⟨_, u⟩]⟩ } } ∧
      ((s.ekf.u.v = [] ∧ a = u) ∨ ∃ l, s.ekf.u = ⟨s.k, ⟨_, a⟩ :: l⟩) := by
  obtain ⟨x, hx⟩ := hi.f.x
  have hp : s.ekf.st.p = 48 + 12 * s.sys.nb := hi.f.p
  have key : ∀ f : Filter, f.st.p = 48 + 12 * s.sys.nb → f.x = some (⟨35, x⟩, s.k) →
      ∀ a : Fin (48 + 12 * s.sys.nb) → ℝ, (f.u = ⟨s.k, [⟨48 + 12 * s.sys.nb, a⟩]⟩ ∨ ∃ b, f.u = ⟨s.k, [⟨48 + 12 * s.sys.nb, a⟩, ⟨48 + 12 * s.sys.nb, b⟩]⟩) →
      Obs.setInput (cfg f) f ⟨48 + 12 * s.sys.nb, u⟩ (s.k + 1) = .ok { f with u := ⟨s.k, [⟨_, a⟩, ⟨_, u⟩]⟩ } := by
    intro f hp hx a hu
    rcases hu with hu | ⟨b, hu⟩ <;> simp only [Obs.setInput, cfg, hp, hu, hx] <;>
      simp [IArr.setValue, IArr.checkIndex, IArr.checkNext, IArr.size, IArr.getNextIndex]
  rcases hi.f.u with hu | hu
  · have h0 : s.ekf.u.size = 0 := by rw [IArr.size, hu]; rfl
    have e1 : Obs.setInput (cfg s.ekf) s.ekf ⟨48 + 12 * s.sys.nb, u⟩ s.k = .ok { s.ekf with u := ⟨s.k, [⟨_, u⟩]⟩ } := by
      simp only [Obs.setInput, cfg, hp, h0, hx]
      simp [IArr.setValue, IArr.checkIndex, IArr.checkNext, hu]
    have ha := key { s.ekf with u := ⟨s.k, [⟨_, u⟩]⟩ } hp hx u (Or.inl rfl)
    refine ⟨u, ?_, Or.inl ⟨hu, rfl⟩⟩
    simp only [exec, Est.setMeasurementInput, Est.firstInput, h0, if_true, e1, Res.ok_bind, ha]
  · have h0 : ¬ s.ekf.u.size = 0 := by
      rcases hu with ⟨a, hu⟩ | ⟨a, b, hu⟩ <;> rw [hu] <;> simp [IArr.size]
    rcases hu with ⟨a, hu⟩ | ⟨a, b, hu⟩
    · have ha := key s.ekf hp hx a (Or.inl hu)
      refine ⟨a, ?_, Or.inr ⟨_, hu⟩⟩
      simp only [exec, Est.setMeasurementInput, Est.firstInput, h0, if_false, Res.ok_bind, ha]
    · have ha := key s.ekf hp hx a (Or.inr ⟨b, hu⟩)
      refine ⟨a, ?_, Or.inr ⟨_, hu⟩⟩
      simp only [exec, Est.setMeasurementInput, Est.firstInput, h0, if_false, Res.ok_bind, ha]

theorem setState_now {k : Int} {f : Filter} (hf : FInv k f) (w : Fin 35 → ℝ) : Obs.setState (cfg f) f ⟨35, w⟩ k = .ok { f with x := some (⟨35, w⟩, k) } := by
  have := obsSetState_live f w k hf.n (by rw [hf.p]; omega)
  rw [drop_y_now hf.y, drop_u_now hf.u] at this
  exact this

theorem setGuess_live {s : Est} (hi : Inv s) (x : Fin 35 → ℝ) :
    exec s (.setFlexibilityGuess (column ⟨35, x⟩)) = .ok { s with ekf := { s.ekf with x := some (⟨35, x⟩, s.k) } } := by
  have e1 : DMat.hasSize (column ⟨35, x⟩) s.ekf.st.n 1 = true := by rw [hi.f.n]; exact DMat.hasSize_mk ..
  simp only [exec, Est.setFlexibilityGuess, e1, Bool.true_or, Res.assert_true, Res.ok_bind, if_true]
  rw [show decide ((column ⟨35, x⟩).rows = 1 ∨ (column ⟨35, x⟩).cols = 1) = true by simp [column]]
  simp only [Res.assert_true, Res.ok_bind]
  rw [dif_pos (by rfl)]
  have e2 := setState_now hi.f x
  have e3 : (⟨(column ⟨35, x⟩).rows, fun i => (column ⟨35, x⟩).val i (Fin.cast (show (column ⟨35, x⟩).cols = 1 from rfl).symm 0)⟩ : DVec) = ⟨35, x⟩ := rfl
  rw [e3, e2]
  rfl

theorem setGuess6_live {s : Est} (hi : Inv s) (x : Fin 6 → ℝ) :
    exec s (.setFlexibilityGuess (column ⟨6, x⟩)) =
      .ok { s with ekf := { s.ekf with x := some (⟨35, setSeg (setSeg (0 : Fin 35 → ℝ) Elastic.iPos (seg 3 x 0)) Elastic.iOri (seg 3 x 3)⟩, s.k) } } := by
  have e1 : DMat.hasSize (column ⟨6, x⟩) s.ekf.st.n 1 = false := by rw [hi.f.n]; simp [DMat.hasSize, column]
  have e0 : DMat.hasSize (column ⟨6, x⟩) 6 1 = true := DMat.hasSize_mk ..
  simp only [exec, Est.setFlexibilityGuess, e1, e0, Bool.true_or, Bool.or_true, Res.assert_true, Res.ok_bind]
  rw [show decide ((column ⟨6, x⟩).rows = 1 ∨ (column ⟨6, x⟩).cols = 1) = true by simp [column]]
  simp only [Res.assert_true, Res.ok_bind]
  rw [dif_pos (by rfl)]
  have e2 := setState_now hi.f (setSeg (setSeg (0 : Fin 35 → ℝ) Elastic.iPos (seg 3 x 0)) Elastic.iOri (seg 3 x 3))
  obtain ⟨Q, hQ⟩ := hi.qSize
  have hq : s.ekf.st.checkQ s.Q = true := by rw [KData.checkQ, hi.f.nt, hQ]; exact DMat.hasSize_mk ..
  have e3 : (⟨s.ekf.st.n, setSeg (setSeg (0 : Fin s.ekf.st.n → ℝ) Elastic.iPos (seg 3 x 0)) Elastic.iOri (seg 3 x 3)⟩ : DVec) =
    ⟨35, setSeg (setSeg (0 : Fin 35 → ℝ) Elastic.iPos (seg 3 x 0)) Elastic.iOri (seg 3 x 3)⟩ := by rw [hi.f.n]
  rw [if_neg (by simp)]
  refine (congrArg (fun v : DVec => Res.bind (Obs.setState (cfg s.ekf) s.ekf v s.k) _) e3).trans ?_
  rw [e2]
  simp only [setQ]
  show (Res.assert (s.ekf.st.checkQ s.Q) >>= _) >>= _ = _
  rw [hq]
  have := hi.q
  simp only [Res.assert_true, Res.ok_bind]
  congr 3
  rw [← this]

theorem setBias_live {s : Est} (hi : Inv s) {l : Fin 35 → ℝ} (hl : s.lastX = ⟨35, l⟩) {n : ℕ} (b : Fin n → ℝ) (hn : 2 ≤ n) :
    exec s (.setComBiasGuess ⟨n, b⟩) = .ok { s with
      lastX := ⟨35, setSeg l Elastic.iBias (seg 2 b 0)⟩
      ekf := { s.ekf with x := some (⟨35, setSeg l Elastic.iBias (seg 2 b 0)⟩, s.k) } } := by
  simp only [exec, Est.setComBiasGuess]
  rw [dif_pos ⟨hn, by rw [hl]; simp⟩]
  have e : (⟨s.lastX.size, setSeg s.lastX.val Elastic.iBias (seg 2 b 0)⟩ : DVec) = ⟨35, setSeg l Elastic.iBias (seg 2 b 0)⟩ := by rw [hl]
  rw [e]
  have i0 : Inv { s with lastX := ⟨35, setSeg l Elastic.iBias (seg 2 b 0)⟩ } := by
    have := hi.toInv0
    exact ⟨⟨this.f, this.q, this.qSize, this.force, this.abs, this.bias, this.unmodeled, ⟨_, rfl⟩⟩, hi.r, hi.rSize⟩
  exact setGuess_live i0 _

end StateObs.ModelFlex
