import Verif.Offline.ModelRunLemmas
import Verif.ModelFlex.StepExample
/-!
# C111: the offline estimation of a flexibility with elastic contacts

`l` are the data that the arguments give for the times `k`, `k + 1`, … of the measurements (`Of`). `before a`, `ask d` and `moment` are the calls that a client of the online estimator makes.
-/

namespace StateObs.Offline
open StateObs KF KFSpec Matrix Imu Rot Kine
open StateObs.ModelFlex (Op Config Inv Has Est StateJacobian MeasureJacobian weights)

theorem starts_column {g : DMat} {x : DVec} (h : Starts g x) : ∃ v, g = ModelFlex.column v ∧ asVector g = .ok v := by
  rcases h with ⟨v, rfl, -⟩ | ⟨v, rfl, -⟩
  · exact ⟨⟨35, v⟩, rfl, rfl⟩
  · exact ⟨⟨6, v⟩, rfl, rfl⟩

/-- The array returned before the loop. -/
theorem first_eq {a : ModelArgs} {k : Int} (hk : a.y.getFirstIndex = k) {v : DVec} (hv : asVector a.xh0 = .ok v) : modelFirst a = .ok (if 0 < k then ⟨k - 1, [v]⟩ else ⟨0, []⟩) := by
  unfold modelFirst
  rw [hk]
  by_cases h : 0 < k
  · rw [if_pos h, if_pos h, hv]
    rfl
  · rw [if_neg h, if_neg h]
    rfl

theorem holds_from (k : Int) (w : List DVec) : Holds ⟨k, w⟩ k w := by
  by_cases hw : w = []
  · subst hw
    intro j hj
    cases hj
  · have := holds_app (a := ⟨k, []⟩) (i := k) (Or.inl rfl) w
    simpa [app, hw] using this

theorem holds_guess (k : Int) (v : DVec) (w : List DVec) : Holds ⟨k - 1, v :: w⟩ k w := by
  by_cases hw : w = []
  · subst hw
    intro j hj
    cases hj
  · have := holds_app (a := ⟨k - 1, [v]⟩) (i := k) (Or.inr (by simp [IArr.getNextIndex])) w
    simpa [app, hw] using this

theorem offline_iff {mem : ℕ → ℕ → ℕ → ℝ} {a : ModelArgs} {k : Int} {l : List Datum} (hd : Data a k l) {p i m s : Option (IArr DVec)} (hp : OptReady p k) (hi : OptReady i k) (hm : OptReady m k)
    (hs : OptReady s k) (o : ModelOut) :
    offlineModelBaseFlexEstimation mem a p i m s = .ok o ↔ ∃ e xh r, ModelFlex.run mem 0.005 (before a) = .ok e ∧ modelFirst a = .ok xh ∧
      Steps ⟨p.isSome, i.isSome, m.isSome, s.isSome⟩ e l r ∧ o = ModelOut.after ⟨xh, p, i, m, s⟩ k r := by
  unfold offlineModelBaseFlexEstimation
  obtain ⟨s0, e0, i0, -⟩ := ModelFlex.ctor_eq mem 0.005
  have hr : ∀ e, modelSetup a s0 = .ok e ↔ ModelFlex.run mem 0.005 (before a) = .ok e := by
    intro e
    rw [modelSetup_eq, ModelFlex.run, e0, Res.ok_bind]
  simp only [e0, Res.ok_bind, Res.bind_eq_ok, hr, hd.first, hd.size]
  constructor
  · rintro ⟨e, h1, xh, h2, h3⟩
    obtain ⟨r, h4, h5⟩ := (loop_iff l k e _ _ o (ModelFlex.inv_run h1) (ModelFlex.has_run h1) (chosen_before a) hd.each ⟨hp, hi, hm, hs⟩).1 h3
    exact ⟨e, xh, r, h1, h2, h4, h5⟩
  · rintro ⟨e, xh, r, h1, h2, h4, h5⟩
    exact ⟨e, h1, xh, h2, (loop_iff l k e _ _ o (ModelFlex.inv_run h1) (ModelFlex.has_run h1) (chosen_before a) hd.each ⟨hp, hi, hm, hs⟩).2 ⟨r, h4, h5⟩⟩

theorem returned {a : ModelArgs} {k : Int} (hk : a.y.getFirstIndex = k) {p i m s : Option (IArr DVec)} (hp : OptReady p k) (hi : OptReady i k) (hm : OptReady m k) (hs : OptReady s k) (r : List Told)
    {v : DVec} (hv : a.xh0 = ModelFlex.column v) {xh : IArr DVec} (hx : modelFirst a = .ok xh) (hv' : asVector a.xh0 = .ok v) :
    Returned a k p i m s r (ModelOut.after ⟨xh, p, i, m, s⟩ k r) := by
  rw [first_eq hk hv'] at hx
  cases hx
  refine ⟨fun h => ⟨v, hv, ?_⟩, fun h => ?_, ?_, ?_, ?_, ?_⟩
  · simp [ModelOut.after, h]
  · simp [ModelOut.after, show ¬ 0 < k by omega]
  · rintro b rfl; exact ⟨_, rfl, holds_app (hp b rfl) _⟩
  · rintro b rfl; exact ⟨_, rfl, holds_app (hi b rfl) _⟩
  · rintro b rfl; exact ⟨_, rfl, holds_app (hm b rfl) _⟩
  · rintro b rfl; exact ⟨_, rfl, holds_app (hs b rfl) _⟩

/-- **C111**, online: whatever `offlineModelBaseFlexEstimation` returns for the time `k + j` is what a new online estimator answers after the calls of the beginning, those for the times before,
and those for this time. -/
theorem C111_online {mem : ℕ → ℕ → ℕ → ℝ} {a : ModelArgs} {k : Int} {l : List Datum} (hd : Data a k l) {p i m s : Option (IArr DVec)} (hp : OptReady p k) (hi : OptReady i k) (hm : OptReady m k)
    (hs : OptReady s k) {o : ModelOut} (h : offlineModelBaseFlexEstimation mem a p i m s = .ok o) :
    ∃ r : List Told, Returned a k p i m s r o ∧ r.length = l.length ∧
      ∀ j (h : j < l.length) (h' : j < r.length), Online mem a ⟨p.isSome, i.isSome, m.isSome, s.isSome⟩ (l.take j) l[j] r[j] := by
  obtain ⟨e, xh, r, h1, h2, h3, rfl⟩ := (offline_iff hd hp hi hm hs o).1 h
  obtain ⟨x, hx, -⟩ := begins h1
  obtain ⟨v, hv, hv'⟩ := starts_column hx
  obtain ⟨h4, h5⟩ := (steps_iff l r _ e h1).1 h3
  exact ⟨r, returned hd.first hp hi hm hs r hv h2 hv', h4, h5⟩

/-- **C111**, return: if the online estimator accepts the calls of the beginning and answers for every time, the function returns these answers. -/
theorem C111_returns {mem : ℕ → ℕ → ℕ → ℝ} {a : ModelArgs} {k : Int} {l : List Datum} (hd : Data a k l) {p i m s : Option (IArr DVec)} (hp : OptReady p k) (hi : OptReady i k) (hm : OptReady m k)
    (hs : OptReady s k) {e : Est} (hb : ModelFlex.run mem 0.005 (before a) = .ok e) (r : List Told) (hr : r.length = l.length)
    (h : ∀ j (h : j < l.length) (h' : j < r.length), Online mem a ⟨p.isSome, i.isSome, m.isSome, s.isSome⟩ (l.take j) l[j] r[j]) :
    ∃ o, offlineModelBaseFlexEstimation mem a p i m s = .ok o ∧ Returned a k p i m s r o := by
  obtain ⟨x, hx, -⟩ := begins hb
  obtain ⟨v, hv, hv'⟩ := starts_column hx
  exact ⟨_, (offline_iff hd hp hi hm hs _).2 ⟨e, _, r, hb, first_eq hd.first hv', (steps_iff l r _ e hb).2 ⟨hr, h⟩, rfl⟩, returned hd.first hp hi hm hs r hv (first_eq hd.first hv') hv'⟩

/-- **C111**, times: when the first time is not negative the estimates are at the times of the measurements. -/
theorem C111_times_partial {a : ModelArgs} {k : Int} {p i m s : Option (IArr DVec)} {r : List Told} {o : ModelOut} (h : Returned a k p i m s r o) (hk : 0 ≤ k) : Holds o.xh k (r.map Told.estimate) := by
  rcases hk.lt_or_eq with hk | rfl
  · obtain ⟨v, -, e⟩ := h.guess hk
    rw [e]
    exact holds_guess k v _
  · rw [h.noGuess (le_refl _)]
    exact holds_from 0 _

/-- **C111**, times, is false when the first time is negative: nothing is returned for this time, the first estimate is at time 0. -/
theorem C111_times_false {a : ModelArgs} {k : Int} {p i m s : Option (IArr DVec)} {r : List Told} {o : ModelOut} (h : Returned a k p i m s r o) (hk : k < 0) (hr : r ≠ []) :
    o.xh.checkIndex k = false ∧ Holds o.xh 0 (r.map Told.estimate) ∧ ¬ Holds o.xh k (r.map Told.estimate) := by
  have e := h.noGuess (by omega)
  have h1 : o.xh.checkIndex k = false := by
    rw [e]
    simp [IArr.checkIndex]
    omega
  refine ⟨h1, ?_, fun h2 => ?_⟩
  · rw [e]
    exact holds_from 0 _
  · have := h2 0 (by simpa [List.length_pos_iff] using hr)
    simp only [Nat.cast_zero, add_zero, IArr.get, h1] at this
    cases this

/-- **C111**, filter: the answers are those of the extended Kalman filter on the model of the robot with the parameters given, from the guess at time 0 with the covariance `defaultCov`. Missing:
constant covariances of the measurement noise together with force measurements (`C111_force_false`), and no covariance of the measurement noise (`C93_default_false`). -/
theorem C111_run_partial {mem : ℕ → ℕ → ℕ → ℝ} {a : ModelArgs} {k : Int} {l : List Datum} (hd : Data a k l) {p i m s : Option (IArr DVec)} (hp : OptReady p k) (hi : OptReady i k) (hm : OptReady m k)
    (hs : OptReady s k) (hQ : ∀ d ∈ l, ∃ Q : Matrix (Fin 35) (Fin 35) ℝ, processCov a d = ⟨35, 35, Q⟩ ∧ Q.PosSemidef)
    (hR : ∀ d ∈ l, ∃ R : Matrix (Fin d.y.size) (Fin d.y.size) ℝ, measuredCov a d = some ⟨_, _, R⟩ ∧ R.PosSemidef) {o : ModelOut} (h : offlineModelBaseFlexEstimation mem a p i m s = .ok o) :
    ∃ (r : List Told) (x : DVec), Returned a k p i m s r o ∧ Starts a.xh0 x ∧ ModelRun a ⟨p.isSome, i.isSome, m.isSome, s.isSome⟩ 0 x defaultCov none l r := by
  obtain ⟨e, xh, r, h1, h2, h3, rfl⟩ := (offline_iff hd hp hi hm hs o).1 h
  obtain ⟨x, hx, hl, hc⟩ := begins h1
  obtain ⟨v, hv, hv'⟩ := starts_column hx
  have hk : e.k = 0 := begins_k h1
  have each : ∀ d ∈ l, ∃ i, Of a i d := by
    intro d hd'
    obtain ⟨j, hj, rfl⟩ := List.getElem_of_mem hd'
    exact ⟨_, hd.each j hj⟩
  refine ⟨r, x, returned hd.first hp hi hm hs r hv h2 hv', hx, ?_⟩
  rw [← hk]
  refine steps_run l r _ e x _ none hl defaultCov_psd ?_ ?_ ?_ h3
  · by_cases hq : 1 < a.Q.size
    · refine .inl fun d hd' => ?_
      obtain ⟨i, hi⟩ := each d hd'
      rcases hi.Q with ⟨-, V, -, hV⟩ | ⟨h, -⟩
      · rw [hV]; simp
      · omega
    · refine .inr ⟨fun d hd' => ?_, hc.Q⟩
      obtain ⟨i, hi⟩ := each d hd'
      rcases hi.Q with ⟨h, -⟩ | ⟨-, h⟩
      · exact absurd h hq
      · exact h
  · by_cases hq : 1 < a.R.size
    · refine .inl fun d hd' => ?_
      obtain ⟨i, hi⟩ := each d hd'
      rcases hi.R with ⟨-, V, -, hV⟩ | ⟨h, -⟩
      · rw [hV]; simp
      · omega
    · refine .inr ⟨fun d hd' => ?_, fun _ => hc.R⟩
      obtain ⟨i, hi⟩ := each d hd'
      rcases hi.R with ⟨h, -⟩ | ⟨-, h⟩
      · exact absurd h hq
      · exact h
  · intro d hd'
    obtain ⟨i, hi⟩ := each d hd'
    obtain ⟨-, -, h, -⟩ := hi.y
    exact ⟨fun hF => by rw [h, hF]; rfl, hQ d hd', hR d hd'⟩

/-- **C111**, filter, is false with force measurements and a constant covariance: whatever constant is given, the variance of the forces in the first estimation with one contact is 1e-4. -/
theorem C111_force_false {mem : ℕ → ℕ → ℕ → ℝ} {a : ModelArgs} (hF : a.withForce = true) {d : Datum} (hn : d.n = 1) (hR : d.R = none) {t : Est}
    (h : ModelFlex.run mem 0.005 (before a ++ ask d) = .ok t) : ∃ R : Matrix (Fin 12) (Fin 12) ℝ, t.R = ⟨12, 12, R⟩ ∧ t.ekf.st.r = ⟨12, 12, R⟩ ∧ ∀ i : Fin 12, 6 ≤ i.val → R i i = 1e-4 := by
  obtain ⟨s, hs⟩ : ∃ s, ModelFlex.run mem 0.005 (before a) = .ok s := by
    unfold ModelFlex.run at h ⊢
    simp only [List.foldlM_append, Res.bind_eq_ok] at h
    obtain ⟨s0, h0, s, h1, -⟩ := h
    exact ⟨s, by rw [h0, Res.ok_bind, h1]⟩
  obtain ⟨-, -, hl, -⟩ := begins hs
  have hk := ModelFlex.has_run hs
  rw [options_before] at hk
  have hi := ModelFlex.inv_run hs
  have hsz : s.R.rows = 6 := by
    obtain ⟨R, e⟩ := hi.rSize
    rw [e]
    show s.sys.measSize = 6
    rw [hk.size hi]
    simp [Config.size, options, Config.default]
  rw [run_append hs] at h
  unfold ask at h
  simp only [hR, Option.map_none, Option.toList_none, List.append_nil, List.foldlM_append, List.foldlM_cons, List.foldlM_nil, bind_assoc, bind_pure, Res.bind_eq_ok, hn] at h
  obtain ⟨s1, h1, s2, h2, s3, h3, s4, h4, h5⟩ := h
  have i1 := ModelFlex.inv_exec hi _ h1
  have k1 := ModelFlex.has_exec hi hk _ h1
  obtain ⟨w, hw, e2⟩ := ModelFlex.setMeas_eq i1 h2
  have i2 := ModelFlex.inv_exec i1 _ h2
  obtain ⟨v, p, hv, e3, hp⟩ := ModelFlex.setMeasInput_eq i2 h3
  have i3 := ModelFlex.inv_exec i2 _ h3
  have e4 := optQ_step i3 h4
  have i4 := foldlM_ok i3 h4
  have q2 : s2.R = s1.R := by rw [e2]
  have q3 : s3.R = s2.R := by rw [e3]
  have q4 : s4.R = s3.R ∧ s4.on = s3.on ∧ s4.ekf.y = s3.ekf.y := by rw [e4]; exact ⟨rfl, rfl, rfl⟩
  have o2 : s2.on = s1.on ∧ s2.ekf.y = ⟨s1.k + 1, [⟨_, w⟩]⟩ := by rw [e2]; exact ⟨rfl, rfl⟩
  have o3 : s3.on = s2.on ∧ s3.ekf.y = s2.ekf.y := by rw [e3]; exact ⟨rfl, rfl⟩
  obtain ⟨-, q5, -⟩ := getVector_params i4 (by rw [q4.2.1, o3.1, o2.1]; exact k1.on) (by rw [q4.2.2, o3.2, o2.2]; simp) h5
  have it := ModelFlex.inv_exec i4 _ h5
  obtain ⟨sys, hsys⟩ : ∃ x, { s.sys with nb := 1 }.updateMeasurementSize = x := ⟨_, rfl⟩
  have hR1 : s1.R = ModelFlex.square 12 (ModelFlex.nextR 1 true false 1e-4 s.absVar 6 (ModelFlex.coeff s.R (s.mem s.allocs))) := by
    have hm : sys.measSize = 12 ∧ sys.nb = 1 := by
      rw [← hsys]
      have h1 : s.sys.withForce = true := by rw [hi.force, hk.force]; exact hF
      have h2 : s.sys.withAbs = false := by rw [hi.abs, hk.abs]; rfl
      simp [Elastic.Sys.updateMeasurementSize, h1, h2]
    obtain ⟨y, u, c, r, er, -⟩ := ModelFlex.resizeF_eq hi.f sys
    rcases ModelFlex.setContactsNumber_eq hi h1 hsys with ⟨h, -⟩ | ⟨-, h, -⟩
    · obtain ⟨t', e, hR', -⟩ := ModelFlex.updateR_grow (s := { s with ekf := ModelFlex.resizeF s.ekf sys }) (d := 1e-4) (by rw [er]; rfl)
        (by rw [er]; show s.R.rows ≠ sys.measSize; rw [hsz, hm.1]; norm_num)
        (by rw [er]; show sys.measSize = 6 + (if s.useFT = true then sys.nb * 6 else 0) + if s.withAbs = true then 6 else 0
            rw [hm.1, hm.2, hk.force, hk.abs]; simp [options, hF, Config.default]) (hk.forceVar _ rfl)
      rw [h] at e
      cases e
      rw [hR']
      have : ({ s with ekf := ModelFlex.resizeF s.ekf sys } : Est).sys = sys := by rw [er]; rfl
      rw [this]
      show ModelFlex.square sys.measSize (ModelFlex.nextR sys.nb s.useFT s.withAbs 1e-4 s.absVar s.R.rows (ModelFlex.coeff s.R (s.mem s.allocs))) = _
      rw [hm.1, hm.2, hsz, hk.force, hk.abs]
      simp [options, hF, Config.default]
    · rw [hk.force] at h
      simp [options, hF] at h
  have hRt : t.R = ModelFlex.square 12 (ModelFlex.nextR 1 true false 1e-4 s.absVar 6 (ModelFlex.coeff s.R (s.mem s.allocs))) := by rw [q5, q4.1, q3, q2, hR1]
  refine ⟨_, hRt, it.r.trans hRt, fun i hi' => ?_⟩
  simp [ModelFlex.nextR, ModelFlex.fillForces_at, ModelFlex.scalar, hi']

end StateObs.Offline
