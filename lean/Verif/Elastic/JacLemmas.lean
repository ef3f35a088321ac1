import Verif.Elastic.MeasProps
/-! # Lemmas about the Jacobians of the robot on elastic contacts -/

namespace StateObs.Elastic
open StateObs Matrix Rot Kine Imu
open StateObs.KO (Robot at3)

variable {G : Type}

/-- The vector with `d` added to the number at position `i`. -/
def bump (x : DVec) (i : ℕ) (d : ℝ) : DVec := ⟨x.size, fun j => if j.val = i then x.val j + d else x.val j⟩

theorem bump_cast (x : DVec) (hx : x.size = 35) (i : Fin 35) (d : ℝ) : (⟨35, Function.update (cast x 35 hx) i (cast x 35 hx i + d)⟩ : DVec) = bump x i d := by
  obtain ⟨n, v⟩ := x
  obtain rfl : n = 35 := hx
  unfold bump cast
  congr
  funext j
  rw [Function.update_apply]
  by_cases h : j = i
  · rw [if_pos h, if_pos (congrArg Fin.val h), h]
    rfl
  · rw [if_neg h, if_neg (fun e => h (Fin.ext e))]
    rfl

theorem at1_val (x : DVec) (i : ℕ) (h : i < x.size) : x.val ⟨i, h⟩ = at1 x i := by
  unfold at1
  rw [dif_pos h]

/-! ## The same computation on another system -/

/-- Two systems with the same parameters compute the same next state. -/
theorem step_congr {s t s' : Sys G} {x u y : DVec} {g g' : G} (hS : Same t s) (hs : RotOK s.rot) (ht : RotOK t.rot) (hn : s.noise = none)
    (h : s.stateDynamics x u g = .ok (y, s', g')) (k : G) :
    g' = g ∧ ∃ t', t.stateDynamics x u k = .ok (y, t', k) ∧ Same t' s ∧ RotOK t'.rot ∧ t'.uk = u ∧ t'.xk = x ∧ t'.xk1 = y ∧ t'.opXk1 = t.opXk1 ∧ t'.efforts = true := by
  obtain ⟨hx, hu⟩ := stateDynamics_sizes h
  obtain ⟨rt, hrt, e⟩ := stateDynamics_eq hs x u g hx hu
  obtain ⟨rt', hrt', e'⟩ := stateDynamics_eq ht x u k hx (hu.trans (by rw [hS.nb]))
  rw [e] at h
  obtain ⟨w, hw, h⟩ := Res.bind_eq_ok.1 h
  unfold Sys.finish at h
  rw [hn] at h
  cases h
  refine ⟨rfl, { t with
    xk := x
    uk := u
    fc := w.2.1
    tc := w.2.2
    efforts := true
    rot := rt'
    xk1 := ⟨35, w.1⟩ }, ?_, ?_, hrt', rfl, rfl, rfl, rfl, rfl⟩
  · rw [e']
    have hw' : t.stepPure (cast x 35 hx) (t.biased (cast x 35 hx) (readInput t.nb (cast u _ (hu.trans (by rw [hS.nb]))))) = .ok w := by
      rw [stepPure_congr hS]
      rw [biased_eq] at hw ⊢
      have hb : bias t x = bias s x := by unfold bias; rw [hS.withBias]
      rw [hb, hS.nb]
      exact hw
    rw [hw']
    simp only [Res.bind, Sys.finish]
    rw [hS.noise, hn]
  · have := hS
    cases this
    constructor <;> assumption

/-- Two systems with the same parameters predict the same measurement. -/
theorem meas_congr {s t s' : Sys G} {x u y : DVec} {k : Int} {g g' : G} (hS : Same t s) (hs : Inv s) (ht : Inv t) (hte : t.efforts = true) (hn : s.sensor.noise = none)
    (h : s.measureDynamics x u k g = .ok (y, s', g')) (k' : Int) (h' : G) :
    g' = g ∧ ∃ t', t.measureDynamics x u k' h' = .ok (y, t', h') ∧ Same t' s ∧ Inv t' ∧ t'.efforts = true ∧ t'.xkY = x ∧ t'.ukY = u ∧ t'.opK = k' ∧ t'.yk = y := by
  obtain ⟨hx, hu, he⟩ := measureDynamics_sizes h
  obtain ⟨a, α, s'', hx, h1, hf, rfl, hy⟩ := measure_ok hs hn h
  obtain ⟨rt, -, e1⟩ := computeAccelerations_eq hs.rot x u hx hu
  rw [e1] at h1
  obtain ⟨w, hw, h1⟩ := Res.bind_eq_ok.1 h1
  have hu' : u.size = 48 + 12 * t.nb := hu.trans (by rw [hS.nb])
  have hw' : t.accelPure (cast x 35 hx) (t.biased (cast x 35 hx) (readInput t.nb (cast u _ hu'))) (seg 3 (cast x 35 hx) iAngVel) = .ok w := by
    rw [accelPure_congr hS]
    rw [biased_eq] at hw ⊢
    have hb : bias t x = bias s x := by unfold bias; rw [hS.withBias]
    rw [hb, hS.nb]
    exact hw
  have hnt : t.sensor.noise = none := hS.snoise.trans hn
  obtain ⟨y', t', ht'⟩ := measure_live (k := k') (g := h') ht hnt hx hu' hte hw' fun h => by rw [hS.nb]; exact hf (by rw [← hS.withForce]; exact h)
  obtain ⟨b, β, t'', hx', h2, -, -, hy'⟩ := measure_ok ht hnt ht'
  obtain ⟨rt', -, e2⟩ := computeAccelerations_eq ht.rot x u hx hu'
  rw [e2, hw'] at h2
  cases h2
  cases h1
  have ho : ∀ R, others t x hx R = others s x hx R := fun R => by unfold others; rw [hS.withForce, hS.withAbs, hS.nb]
  have hyy : y' = y := by rw [hy', hy, ho]
  subst hyy
  obtain ⟨ef, e3, e4, e5, e6, e7⟩ := measureDynamics_eff ht ht'
  exact ⟨rfl, t', ht', ef.same.trans hS, ef.inv ht, e3, e4, e5, e6, e7⟩

/-! ## The columns of the Jacobian of the dynamics -/

/-- A column, in terms of calls on `s`. -/
def StateColumn (s : Sys G) (x u y : DVec) (g : G) (i : Fin 35) (c : Fin 35 → ℝ) : Prop :=
  if s.active i then i.val < s.dx.size ∧ at1 s.dx i ≠ 0 ∧ y.size = 35 ∧ ∃ z s', s.stateDynamics (bump x i (at1 s.dx i)) u g = .ok (z, s', g) ∧ z.size = 35 ∧
    ∀ j : Fin 35, c j = (at1 z j - at1 y j) / at1 s.dx i
  else c = Pi.single i 1

theorem active_congr {s t : Sys G} (h : Same t s) (i : ℕ) : t.active i = s.active i := by
  unfold Sys.active
  rw [h.withUnmodeled, h.withBias, h.withAbs]

/-- One column computed on a system with the same parameters. -/
theorem stateColumn_ok {s t t' : Sys G} {x u y : DVec} {hx : x.size = 35} {i : Fin 35} {g h h' : G} {c} (hS : Same t s) (hs : RotOK s.rot) (ht : RotOK t.rot)
    (hn : s.noise = none) (hu : t.uk = u) (e : t.stateColumn (cast x 35 hx) y i h = .ok (c, t', h')) :
    StateColumn s x u y g i c ∧ h' = h ∧ Same t' s ∧ RotOK t'.rot ∧ t'.uk = u ∧ t'.opXk1 = t.opXk1 ∧ (t.efforts = true → t'.efforts = true) := by
  unfold Sys.stateColumn at e
  unfold StateColumn
  rw [active_congr hS] at e
  split_ifs at e with ha
  · rw [if_pos ha]
    unfold Sys.fdState at e
    split_ifs at e with hi
    simp only [Res.bind_eq_ok] at e
    obtain ⟨⟨z, t1, h1⟩, e1, e⟩ := e
    split_ifs at e with hz hd
    cases e
    rw [bump_cast, hu, at1_val] at e1
    rw [at1_val, hS.dx] at hd
    rw [hS.dx] at e1
    obtain ⟨hh, s', e2, -⟩ := step_congr hS.symm ht hs (hS.noise.trans hn) e1 g
    obtain ⟨-, t2, e3, e4, e5, e6, -, -, e7, e8⟩ := step_congr hS hs ht hn e2 h
    rw [e1] at e3
    cases e3
    refine ⟨⟨by rw [← hS.dx]; exact hi, hd, hz.2, z, s', e2, hz.1, fun j => ?_⟩, hh, e4, e5, e6, e7, fun _ => e8⟩
    have hzj : z.val (Fin.cast hz.1.symm j) = at1 z j := at1_val z j _
    have hyj : y.val (Fin.cast hz.2.symm j) = at1 y j := at1_val y j _
    simp only [hzj, hyj, at1_val, hS.dx]
  · cases e
    rw [if_neg ha]
    exact ⟨rfl, rfl, hS, ht, hu, rfl, fun h => h⟩

theorem stateColumn_live {s t : Sys G} {x u y : DVec} {hx : x.size = 35} {i : Fin 35} {g : G} {c} (hS : Same t s) (hs : RotOK s.rot) (ht : RotOK t.rot)
    (hn : s.noise = none) (hu : t.uk = u) (hc : StateColumn s x u y g i c) (h : G) : ∃ t', t.stateColumn (cast x 35 hx) y i h = .ok (c, t', h) := by
  unfold Sys.stateColumn
  unfold StateColumn at hc
  rw [active_congr hS]
  split_ifs at hc with ha
  · rw [if_pos ha]
    obtain ⟨hi, hd, hy, z, s', e, hz, hc⟩ := hc
    obtain ⟨-, t', e', -⟩ := step_congr hS hs ht hn e h
    have hi' : i.val < t.dx.size := by rw [hS.dx]; exact hi
    have hd' : t.dx.val ⟨i, hi'⟩ = at1 s.dx i := by rw [at1_val, hS.dx]
    refine ⟨t', ?_⟩
    unfold Sys.fdState
    rw [dif_pos hi']
    simp only [bump_cast, hu, hd', e', Res.ok_bind]
    rw [dif_pos ⟨hz, hy⟩, if_neg hd]
    have : (fun j => (z.val (Fin.cast hz.symm j) - y.val (Fin.cast hy.symm j)) / at1 s.dx i) = c := by
      funext j
      have hzj : z.val (Fin.cast hz.symm j) = at1 z j := at1_val z j _
      have hyj : y.val (Fin.cast hy.symm j) = at1 y j := at1_val y j _
      rw [hc, hzj, hyj]
    rw [this]
  · rw [if_neg ha]
    exact ⟨t, by rw [hc]⟩

theorem stateColumns_ok {s : Sys G} {x u y : DVec} {hx : x.size = 35} {g : G} (hs : RotOK s.rot) (hn : s.noise = none) :
    ∀ (l : List (Fin 35)) {t t' : Sys G} {h h' : G} {J}, Same t s → RotOK t.rot → t.uk = u → Sys.stateColumns (cast x 35 hx) y l t h = .ok (J, t', h') →
      List.Forall₂ (StateColumn s x u y g) l J ∧ h' = h ∧ Same t' s ∧ RotOK t'.rot ∧ t'.uk = u ∧ t'.opXk1 = t.opXk1 ∧ (t.efforts = true → t'.efforts = true)
  | [], t, t', h, h', J, hS, ht, hu, e => by cases e; exact ⟨.nil, rfl, hS, ht, hu, rfl, fun h => h⟩
  | i :: l, t, t', h, h', J, hS, ht, hu, e => by
    unfold Sys.stateColumns at e
    simp only [Res.bind_eq_ok] at e
    obtain ⟨⟨c, t1, h1⟩, e1, ⟨cs, t2, h2⟩, e2, e⟩ := e
    cases e
    obtain ⟨a1, rfl, a2, a3, a4, a5, a6⟩ := stateColumn_ok (g := g) hS hs ht hn hu e1
    obtain ⟨b1, rfl, b2, b3, b4, b5, b6⟩ := stateColumns_ok hs hn l a2 a3 a4 e2
    exact ⟨.cons a1 b1, rfl, b2, b3, b4, b5.trans a5, fun h => b6 (a6 h)⟩

theorem stateColumns_live {s : Sys G} {x u y : DVec} {hx : x.size = 35} {g : G} (hs : RotOK s.rot) (hn : s.noise = none) :
    ∀ (l : List (Fin 35)) (J) {t : Sys G}, Same t s → RotOK t.rot → t.uk = u → List.Forall₂ (StateColumn s x u y g) l J →
      ∀ h, ∃ t', Sys.stateColumns (cast x 35 hx) y l t h = .ok (J, t', h)
  | [], _, t, _, _, _, .nil, h => ⟨t, rfl⟩
  | i :: l, _, t, hS, ht, hu, .cons hc hl, h => by
    obtain ⟨t1, e1⟩ := stateColumn_live (hx := hx) hS hs ht hn hu hc h
    obtain ⟨-, -, a2, a3, a4, -⟩ := stateColumn_ok (g := g) hS hs ht hn hu e1
    obtain ⟨t2, e2⟩ := stateColumns_live (hx := hx) hs hn l _ a2 a3 a4 hl h
    refine ⟨t2, ?_⟩
    unfold Sys.stateColumns
    rw [e1, Res.ok_bind]
    simp only [e2, Res.ok_bind]

/-! ## The columns of the Jacobian of the measurement -/

/-- A column, in terms of calls on `s`. -/
def MeasColumn (s : Sys G) (x u y : DVec) (k : Int) (g : G) (i : Fin 35) (c : DVec) : Prop :=
  c.size = s.measSize ∧ if s.active i then i.val < s.dx.size ∧ at1 s.dx i ≠ 0 ∧ y.size = s.measSize ∧ ∃ z s', s.measureDynamics (bump x i (at1 s.dx i)) u k g = .ok (z, s', g) ∧
    z.size = s.measSize ∧ ∀ j, j < s.measSize → at1 c j = (at1 z j - at1 y j) / at1 s.dx i
  else ∀ j, at1 c j = 0

theorem DVec.ext1 {a b : DVec} (hs : a.size = b.size) (h : ∀ j, j < b.size → at1 a j = at1 b j) : a = b := by
  obtain ⟨n, v⟩ := a
  obtain ⟨m, w⟩ := b
  obtain rfl : n = m := hs
  congr
  funext j
  have := h j j.2
  unfold at1 at this
  rwa [dif_pos j.2, dif_pos j.2] at this

theorem at1_mk {n : ℕ} (v : Fin n → ℝ) (j : ℕ) (h : j < n) : at1 ⟨n, v⟩ j = v ⟨j, h⟩ := dif_pos h

theorem fdMeasure_ok {s t t' : Sys G} {x u y : DVec} {hx : x.size = 35} {i : Fin 35} {k : Int} {g h h' : G} {c} (hS : Same t s) (hs : Inv s) (hse : s.efforts = true) (ht : Inv t)
    (hte : t.efforts = true) (hn : s.sensor.noise = none) (hu : t.ukY = u) (hk : t.opK = k) (ha : s.active i = true) (e : t.fdMeasure (cast x 35 hx) y i h = .ok (c, t', h')) :
    MeasColumn s x u y k g i ⟨t.measSize, c⟩ ∧ h' = h ∧ Same t' s ∧ Inv t' ∧ t'.efforts = true ∧ t'.ukY = u ∧ t'.opK = k := by
  unfold MeasColumn
  rw [if_pos ha]
  unfold Sys.fdMeasure at e
  split_ifs at e with hi
  simp only [Res.bind_eq_ok] at e
  obtain ⟨⟨z, t1, h1⟩, e1, e⟩ := e
  split_ifs at e with hz hd
  cases e
  rw [bump_cast, hu, hk, at1_val] at e1
  rw [at1_val, hS.dx] at hd
  rw [hS.dx] at e1
  obtain ⟨hh, s', e2, -⟩ := meas_congr hS.symm ht hs hse (hS.snoise.trans hn) e1 k g
  obtain ⟨-, t2, e3, e4, e5, e6, -, e7, e8, -⟩ := meas_congr hS hs ht hte hn e2 k h
  rw [e1] at e3
  cases e3
  refine ⟨⟨hS.measSize, by rw [← hS.dx]; exact hi, hd, hz.2.trans hS.measSize, z, s', e2, hz.1.trans hS.measSize, fun j hj => ?_⟩, hh, e4, e5, e6, e7, e8⟩
  rw [← hS.measSize] at hj
  have hzj : z.val (Fin.cast hz.1.symm ⟨j, hj⟩) = at1 z j := at1_val z j _
  have hyj : y.val (Fin.cast hz.2.symm ⟨j, hj⟩) = at1 y j := at1_val y j _
  rw [at1_mk _ _ hj]
  simp only [hzj, hyj, at1_val, hS.dx]

theorem fdMeasure_live {s t : Sys G} {x u y : DVec} {hx : x.size = 35} {i : Fin 35} {k : Int} {g : G} {c : DVec} (hS : Same t s) (hs : Inv s) (ht : Inv t)
    (hte : t.efforts = true) (hn : s.sensor.noise = none) (hu : t.ukY = u) (hk : t.opK = k) (ha : s.active i = true) (hc : MeasColumn s x u y k g i c) (h : G) :
    ∃ c' t', t.fdMeasure (cast x 35 hx) y i h = .ok (c', t', h) ∧ (⟨t.measSize, c'⟩ : DVec) = c := by
  unfold MeasColumn at hc
  rw [if_pos ha] at hc
  obtain ⟨hcs, hi, hd, hy, z, s', e, hz, hc⟩ := hc
  obtain ⟨-, t', e', -⟩ := meas_congr hS hs ht hte hn e k h
  have hi' : i.val < t.dx.size := by rw [hS.dx]; exact hi
  have hd' : t.dx.val ⟨i, hi'⟩ = at1 s.dx i := by rw [at1_val, hS.dx]
  have hz' : z.size = t.measSize := hz.trans hS.measSize.symm
  have hy' : y.size = t.measSize := hy.trans hS.measSize.symm
  refine ⟨fun j => (z.val (Fin.cast hz'.symm j) - y.val (Fin.cast hy'.symm j)) / at1 s.dx i, t', ?_, ?_⟩
  · unfold Sys.fdMeasure
    rw [dif_pos hi']
    simp only [bump_cast, hu, hk, hd', e', Res.ok_bind]
    rw [dif_pos ⟨hz', hy'⟩, if_neg hd]
  · refine DVec.ext1 (hS.measSize.trans hcs.symm) fun j hj => ?_
    rw [hc j (by rw [← hcs]; exact hj)]
    have hj' : j < t.measSize := by rw [hS.measSize, ← hcs]; exact hj
    rw [at1_mk _ _ hj']
    have hzj : z.val (Fin.cast hz'.symm ⟨j, hj'⟩) = at1 z j := at1_val z j _
    have hyj : y.val (Fin.cast hy'.symm ⟨j, hj'⟩) = at1 y j := at1_val y j _
    simp only [hzj, hyj]

theorem at1_zero (n j : ℕ) : at1 ⟨n, 0⟩ j = 0 := by
  unfold at1
  split_ifs <;> rfl

theorem measureColumns_ok {s : Sys G} {x u y : DVec} {hx : x.size = 35} {k : Int} {g : G} (hs : Inv s) (hse : s.efforts = true) (hn : s.sensor.noise = none) :
    ∀ (l : List (Fin 35)) {t t' : Sys G} {h h' : G} {J}, Same t s → Inv t → t.efforts = true → t.ukY = u → t.opK = k →
      Sys.measureColumns (cast x 35 hx) y l t h = .ok (J, t', h') →
      List.Forall₂ (MeasColumn s x u y k g) l J ∧ h' = h ∧ Same t' s ∧ Inv t' ∧ t'.efforts = true ∧ t'.ukY = u ∧ t'.opK = k
  | [], t, t', h, h', J, hS, ht, hte, hu, hk, e => by cases e; exact ⟨.nil, rfl, hS, ht, hte, hu, hk⟩
  | i :: l, t, t', h, h', J, hS, ht, hte, hu, hk, e => by
    unfold Sys.measureColumns at e
    rw [active_congr hS] at e
    split_ifs at e with ha
    · simp only [Res.bind_eq_ok] at e
      obtain ⟨⟨c, t1, h1⟩, e1, ⟨cs, t2, h2⟩, e2, e⟩ := e
      cases e
      obtain ⟨a1, rfl, a2, a3, a4, a5, a6⟩ := fdMeasure_ok (g := g) hS hs hse ht hte hn hu hk ha e1
      obtain ⟨b1, rfl, b2, b3, b4, b5, b6⟩ := measureColumns_ok hs hse hn l a2 a3 a4 a5 a6 e2
      exact ⟨.cons a1 b1, rfl, b2, b3, b4, b5, b6⟩
    · simp only [Res.bind_eq_ok] at e
      obtain ⟨⟨cs, t2, h2⟩, e2, e⟩ := e
      cases e
      obtain ⟨b1, rfl, b2, b3, b4, b5, b6⟩ := measureColumns_ok hs hse hn l hS ht hte hu hk e2
      refine ⟨.cons ?_ b1, rfl, b2, b3, b4, b5, b6⟩
      unfold MeasColumn
      rw [if_neg ha]
      exact ⟨hS.measSize, fun j => at1_zero _ _⟩

theorem measureColumns_live {s : Sys G} {x u y : DVec} {hx : x.size = 35} {k : Int} {g : G} (hs : Inv s) (hse : s.efforts = true) (hn : s.sensor.noise = none) :
    ∀ (l : List (Fin 35)) (J), List.Forall₂ (MeasColumn s x u y k g) l J → ∀ t : Sys G, Same t s → Inv t → t.efforts = true → t.ukY = u → t.opK = k →
      ∀ h, ∃ t', Sys.measureColumns (cast x 35 hx) y l t h = .ok (J, t', h) := by
  intro l J hJ
  induction hJ with
  | nil => exact fun t _ _ _ _ _ h => ⟨t, rfl⟩
  | @cons i c l J hc hl ih =>
    intro t hS ht hte hu hk h
    unfold Sys.measureColumns
    rw [active_congr hS]
    by_cases ha : s.active i = true
    · rw [if_pos ha]
      obtain ⟨c', t1, e1, e3⟩ := fdMeasure_live (hx := hx) hS hs ht hte hn hu hk ha hc h
      obtain ⟨-, -, a2, a3, a4, a5, a6⟩ := fdMeasure_ok (g := g) hS hs hse ht hte hn hu hk ha e1
      obtain ⟨t2, e2⟩ := ih t1 a2 a3 a4 a5 a6 h
      refine ⟨t2, ?_⟩
      rw [e1, Res.ok_bind]
      simp only [e2, Res.ok_bind, e3]
    · rw [if_neg ha]
      obtain ⟨t2, e2⟩ := ih t hS ht hte hu hk h
      refine ⟨t2, ?_⟩
      simp only [e2, Res.ok_bind]
      unfold MeasColumn at hc
      rw [if_neg ha] at hc
      have : (⟨t.measSize, 0⟩ : DVec) = c := DVec.ext1 (hS.measSize.trans hc.1.symm) fun j _ => by rw [hc.2, at1_zero]
      rw [this]

end StateObs.Elastic
