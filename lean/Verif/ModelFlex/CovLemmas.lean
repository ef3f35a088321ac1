import Verif.ModelFlex.Config
/-! # The covariance of the measurement noise: lemmas -/

namespace StateObs.ModelFlex
open StateObs KF Imu Rot Kine Matrix Obs

theorem fillForces_at (V : ℕ → ℕ → ℝ) : ∀ (n cur : ℕ) (f : ℕ → ℕ → ℝ) (i j : ℕ), fillForces V n cur f i j =
    if cur ≤ i ∧ cur ≤ j ∧ i < cur + n * 6 ∧ j < cur + n * 6 ∧ (i - cur) / 6 = (j - cur) / 6 then V ((i - cur) % 6) ((j - cur) % 6) else f i j
  | 0, cur, f, i, j => by
    rw [if_neg (by omega)]; rfl
  | n + 1, cur, f, i, j => by
    rw [fillForces, fillForces_at V n]
    simp only [setBlk]
    by_cases h1 : cur + 6 ≤ i ∧ cur + 6 ≤ j ∧ i < cur + 6 + n * 6 ∧ j < cur + 6 + n * 6 ∧ (i - (cur + 6)) / 6 = (j - (cur + 6)) / 6
    · rw [if_pos h1, if_pos (by omega)]
      congr 1 <;> omega
    · rw [if_neg h1]
      by_cases h2 : (cur ≤ i ∧ i < cur + 6) ∧ cur ≤ j ∧ j < cur + 6
      · rw [if_pos h2, if_pos (by omega)]
        congr 1 <;> omega
      · rw [if_neg h2, if_neg (by omega)]

/-- The coefficients written when the size of the measurement changes: `real` is the old size, `f` the old coefficients. -/
noncomputable def nextR (nb : ℕ) (force abs : Bool) (d a : ℝ) (real : ℕ) (f : ℕ → ℕ → ℝ) : ℕ → ℕ → ℝ :=
  let p := force = true ∧ real < 6 + nb * 6
  let f1 := if p then fillForces (scalar d) nb 6 (setBlk (setBlk f 6 0 (nb * 6) 6 0) 0 6 6 (nb * 6) 0) else f
  let cur := if p then 6 + nb * 6 else 6
  if abs = true ∧ real < cur + 6 then setBlk (setBlk (setBlk f1 cur 0 6 cur 0) 0 cur cur 6 0) cur cur 6 6 (scalar a) else f1

theorem fillForces_congr {V W : ℕ → ℕ → ℝ} (h : ∀ i j, i < 6 → j < 6 → V i j = W i j) (n cur : ℕ) (f : ℕ → ℕ → ℝ) : fillForces V n cur f = fillForces W n cur f := by
  funext i j
  rw [fillForces_at, fillForces_at]
  split_ifs
  · exact h _ _ (by omega) (by omega)
  · rfl

theorem coeff_square (m : ℕ) (f junk : ℕ → ℕ → ℝ) (i j : ℕ) (h1 : i < m) (h2 : j < m) : coeff (square m f) junk i j = f i j := by
  rw [coeff, dif_pos ⟨h1, h2⟩]; rfl

theorem resizedR_live {s : Est} {d : ℝ} (h0 : s.R.rows ≠ s.sys.measSize) (hm : s.sys.measSize = 6 + (if s.useFT then s.sys.nb * 6 else 0) + (if s.withAbs then 6 else 0))
    (hd : s.forceVar = square 6 (scalar d)) :
    s.resizedR = .ok (square s.sys.measSize (nextR s.sys.nb s.useFT s.withAbs d s.absVar s.R.rows (coeff s.R (s.mem s.allocs))), s.allocs + 1) := by
  have e1 : s.forcePart s.sys.measSize s.R.rows (coeff s.R (s.mem s.allocs)) = .ok (if s.useFT = true ∧ s.R.rows < 6 + s.sys.nb * 6 then
      fillForces (scalar d) s.sys.nb 6 (setBlk (setBlk (coeff s.R (s.mem s.allocs)) 6 0 (s.sys.nb * 6) 6 0) 0 6 6 (s.sys.nb * 6) 0) else coeff s.R (s.mem s.allocs),
      if s.useFT = true ∧ s.R.rows < 6 + s.sys.nb * 6 then 6 + s.sys.nb * 6 else 6) := by
    unfold Est.forcePart
    by_cases h : s.useFT = true ∧ s.R.rows < 6 + s.sys.nb * 6
    · rw [if_pos h, if_pos h, if_pos h]
      rw [if_pos h.1] at hm
      rw [show decide (6 + s.sys.nb * 6 ≤ s.sys.measSize) = true by rw [decide_eq_true_eq]; omega, Res.assert_true, Res.ok_bind]
      rw [hd, show (square 6 (scalar d)).hasSize 6 6 = true from DMat.hasSize_mk .., Bool.or_true, Res.assert_true, Res.ok_bind]
      simp only
      congr 2
      exact fillForces_congr (fun i j h1 h2 => coeff_square 6 _ _ i j h1 h2) _ _ _
    · rw [if_neg h, if_neg h, if_neg h]
  unfold Est.resizedR
  rw [if_pos h0, e1]
  simp only [Res.ok_bind, Est.absPart]
  by_cases h : s.withAbs = true ∧ s.R.rows < (if s.useFT = true ∧ s.R.rows < 6 + s.sys.nb * 6 then 6 + s.sys.nb * 6 else 6) + 6
  · rw [if_pos h]
    rw [show decide ((if s.useFT = true ∧ s.R.rows < 6 + s.sys.nb * 6 then 6 + s.sys.nb * 6 else 6) + 6 ≤ s.sys.measSize) = true from ?_, Res.assert_true]
    · simp only [Res.ok_bind, nextR, if_pos h]
    · rw [decide_eq_true_eq, hm, if_pos h.1]
      split_ifs <;> first | omega | (exfalso; tauto)
  · rw [if_neg h]
    simp only [Res.ok_bind, nextR, if_neg h]

theorem updateR_live {s : Est} {R : DMat} {n : ℕ} (hm : s.ekf.st.mt = s.sys.measSize) (h : s.resizedR = .ok (R, n)) (hs : R.hasSize s.sys.measSize s.sys.measSize = true) :
    s.updateR = .ok { s with ekf := { s.ekf with st := { s.ekf.st with r := R } }, R := R, allocs := n } := by
  have : s.ekf.st.checkR R = true := by rw [KData.checkR, hm, hs]
  simp only [Est.updateR, h, Res.ok_bind, setR, this, Res.assert_true]

theorem updateR_grow {s : Est} {d : ℝ} (hmt : s.ekf.st.mt = s.sys.measSize) (h0 : s.R.rows ≠ s.sys.measSize)
    (hm : s.sys.measSize = 6 + (if s.useFT then s.sys.nb * 6 else 0) + (if s.withAbs then 6 else 0)) (hd : s.forceVar = square 6 (scalar d)) :
    ∃ t, s.updateR = .ok t ∧ t.R = square s.sys.measSize (nextR s.sys.nb s.useFT s.withAbs d s.absVar s.R.rows (coeff s.R (s.mem s.allocs))) ∧ t.mem = s.mem :=
  ⟨_, updateR_live hmt (resizedR_live h0 hm hd) (DMat.hasSize_mk ..), rfl, rfl⟩

theorem updateR_keep {s : Est} (hmt : s.ekf.st.mt = s.sys.measSize) {R : Matrix (Fin s.sys.measSize) (Fin s.sys.measSize) ℝ} (hR : s.R = ⟨_, _, R⟩) :
    s.updateR = .ok { s with ekf := { s.ekf with st := { s.ekf.st with r := s.R } } } := by
  have h : s.resizedR = .ok (s.R, s.allocs) := by rw [Est.resizedR, if_neg (by rw [hR]; simp)]
  exact updateR_live hmt h (by rw [hR]; exact DMat.hasSize_mk ..)

theorem setWithForces_step {s : Est} (hi : Inv s) {b : Bool} (hb : s.useFT ≠ b) : s.setWithForcesMeasurements b =
    ({ s with useFT := b, ekf := resizeF s.ekf { s.sys with withForce := b }.updateMeasurementSize } : Est).updateR := by
  rw [Est.setWithForcesMeasurements, if_pos hb]
  symm
  congr 2
  unfold resizeF
  congr 1
  exact setInputSize_same _ hi.f.p

theorem setWithAbs_step {s : Est} (hi : Inv s) {b : Bool} (hb : s.withAbs ≠ b) : s.setWithAbsolutePos b =
    ({ s with withAbs := b, ekf := resizeF s.ekf { s.sys with withAbs := b }.updateMeasurementSize } : Est).updateR := by
  rw [Est.setWithAbsolutePos, if_pos hb]
  symm
  congr 2
  unfold resizeF
  congr 1
  exact setInputSize_same _ hi.f.p

/-- Enabling the measurement of the forces. -/
theorem forces_live {s : Est} (hi : Inv s) {c : Config} (hc : Has s c) (h : c.force = false) (hn : 0 < c.nb) {d : ℝ} (hd : c.forceVar = some d) :
    ∃ t, exec s (.setWithForcesMeasurements true) = .ok t ∧ t.mem = s.mem ∧
      t.R = square { c with force := true }.size (nextR c.nb true c.abs d c.absVar c.size (coeff s.R (s.mem s.allocs))) := by
  obtain ⟨sys, hs⟩ : ∃ x, { s.sys with withForce := true }.updateMeasurementSize = x := ⟨_, rfl⟩
  obtain ⟨y, u, c', r, e, -⟩ := resizeF_eq hi.f sys
  have hn' : sys.nb = c.nb := by rw [← hs]; exact hc.nb
  have hm : sys.measSize = { c with force := true }.size := by
    rw [← hs]
    simp only [Elastic.Sys.updateMeasurementSize, Config.size, if_true]
    rw [hi.abs, hc.abs, hc.nb]
  have hsz := hc.size hi
  obtain ⟨R, hR⟩ := hi.rSize
  have hRr : s.R.rows = c.size := by rw [hR]; exact hsz
  obtain ⟨t, h2, h3, h4⟩ := updateR_grow (s := { s with useFT := true, ekf := resizeF s.ekf sys }) (d := d) (by show (resizeF s.ekf sys).st.mt = (resizeF s.ekf sys).st.ext.sys.measSize; rw [e])
    (by
      show s.R.rows ≠ (resizeF s.ekf sys).st.ext.sys.measSize
      rw [resizeF_sys hi, hm, hRr]
      simp only [Config.size, h, if_true]
      simp
      omega)
    (by
      show (resizeF s.ekf sys).st.ext.sys.measSize = 6 + (if true then (resizeF s.ekf sys).st.ext.sys.nb * 6 else 0) + (if s.withAbs then 6 else 0)
      rw [resizeF_sys hi, hm, hc.abs, hn', Config.size])
    (hc.forceVar d hd)
  refine ⟨t, ?_, h4, ?_⟩
  · show s.setWithForcesMeasurements true = _
    rw [setWithForces_step hi (by rw [hc.force, h]; decide), hs, h2]
  · rw [h3]
    have e1 : (Est.sys { s with useFT := true, ekf := resizeF s.ekf sys }) = sys := resizeF_sys hi sys
    rw [e1]
    show square sys.measSize (nextR sys.nb true s.withAbs d s.absVar s.R.rows _) = _
    rw [hm, hc.abs, hc.absVar, hRr, hn']

/-- Enabling the measurement of the absolute pose. -/
theorem abs_live {s : Est} (hi : Inv s) {c : Config} (hc : Has s c) (h : c.abs = false) {d : ℝ} (hd : c.forceVar = some d) :
    ∃ t, exec s (.setWithAbsolutePos true) = .ok t ∧ t.mem = s.mem ∧
      t.R = square { c with abs := true }.size (nextR c.nb c.force true d c.absVar c.size (coeff s.R (s.mem s.allocs))) := by
  obtain ⟨sys, hs⟩ : ∃ x, { s.sys with withAbs := true }.updateMeasurementSize = x := ⟨_, rfl⟩
  obtain ⟨y, u, c', r, e, -⟩ := resizeF_eq hi.f sys
  have hn' : sys.nb = c.nb := by rw [← hs]; exact hc.nb
  have hm : sys.measSize = { c with abs := true }.size := by
    rw [← hs]
    simp only [Elastic.Sys.updateMeasurementSize, Config.size, if_true]
    rw [hi.force, hc.force, hc.nb]
  have hsz := hc.size hi
  obtain ⟨R, hR⟩ := hi.rSize
  have hRr : s.R.rows = c.size := by rw [hR]; exact hsz
  obtain ⟨t, h2, h3, h4⟩ := updateR_grow (s := { s with withAbs := true, ekf := resizeF s.ekf sys }) (d := d) (by show (resizeF s.ekf sys).st.mt = (resizeF s.ekf sys).st.ext.sys.measSize; rw [e])
    (by
      show s.R.rows ≠ (resizeF s.ekf sys).st.ext.sys.measSize
      rw [resizeF_sys hi, hm, hRr]
      simp only [Config.size, h, if_true]
      simp)
    (by
      show (resizeF s.ekf sys).st.ext.sys.measSize = 6 + (if s.useFT then (resizeF s.ekf sys).st.ext.sys.nb * 6 else 0) + (if true then 6 else 0)
      rw [resizeF_sys hi, hm, hc.force, hn', Config.size])
    (hc.forceVar d hd)
  refine ⟨t, ?_, h4, ?_⟩
  · show s.setWithAbsolutePos true = _
    rw [setWithAbs_step hi (by rw [hc.abs, h]; decide), hs, h2]
  · rw [h3]
    have e1 : (Est.sys { s with withAbs := true, ekf := resizeF s.ekf sys }) = sys := resizeF_sys hi sys
    rw [e1]
    show square sys.measSize (nextR sys.nb s.useFT true d s.absVar s.R.rows _) = _
    rw [hm, hc.force, hc.absVar, hRr, hn']

/-- The number of contacts, without measurement of the forces. -/
theorem contacts_live {s : Est} (hi : Inv s) (h : s.useFT = false) (n : ℕ) : ∃ t, exec s (.setContactsNumber n) = .ok t ∧ t.mem = s.mem ∧ t.R = s.R ∧ t.allocs = s.allocs ∧
    t.ekf.x = s.ekf.x ∧ t.k = s.k ∧ t.lastX = s.lastX ∧ t.Q = s.Q ∧ t.ekf.st.pr = s.ekf.st.pr := by
  obtain ⟨sys, hs⟩ : ∃ x, { s.sys with nb := n }.updateMeasurementSize = x := ⟨_, rfl⟩
  have e : exec s (.setContactsNumber n) = .ok { (s.setSys sys) with ekf := setInputSize (s.setSys sys).ekf (48 + 12 * (s.setSys sys).sys.nb) } := by
    show s.setContactsNumber n = _
    simp only [Est.setContactsNumber, hs]
    rw [if_neg (by show ¬ s.useFT = true; simp [h])]
  have e1 : setInputSize (s.setSys sys).ekf (48 + 12 * (s.setSys sys).sys.nb) = _ := rfl
  obtain ⟨u, eu, -⟩ := setInputSize_eq (s.setSys sys).ekf hi.f.p (48 + 12 * (s.setSys sys).sys.nb)
  rw [eu] at e
  exact ⟨_, e, rfl, rfl, rfl, rfl, rfl, rfl, rfl, rfl⟩

theorem run_snoc {mem : ℕ → ℕ → ℕ → ℝ} {dt : ℝ} {ops : List Op} {s t : Est} {op : Op} (h : run mem dt ops = .ok s) (h' : exec s op = .ok t) : run mem dt (ops ++ [op]) = .ok t := by
  unfold run at h ⊢
  simp only [Res.bind_eq_ok] at h ⊢
  obtain ⟨s0, h0, h1⟩ := h
  refine ⟨s0, h0, ?_⟩
  rw [List.foldlM_append, h1]
  show (List.foldlM exec s [op] : Res Est) = _
  simp only [List.foldlM_cons, List.foldlM_nil, h']
  rfl

end StateObs.ModelFlex
