import Verif.KO.Live
import Verif.KO.LiveFilter
import Mathlib.Analysis.Matrix.Order
/-!
# When the measurement is built and predicted, and when `update()` returns
-/

namespace StateObs.KO
open StateObs Matrix Rot Kine KF
open Observer

variable {nc ni : ℕ} {o : Observer}

/-- The IMUs of the time `k` have consecutive positions in the measurement vector, from `s` to `e`. -/
def TiledI (k : Int) : List IMU → ℕ → ℕ → Prop
  | [], s, e => s = e
  | m :: l, s, e => if m.time = k then m.measIndex = some s ∧ TiledI k l (s + 6) e else TiledI k l s e
/-- The same for the contacts with a sensor. -/
def TiledC : List Contact → ℕ → ℕ → Prop
  | [], s, e => s = e
  | c :: l, s, e => if c.withRealSensor then c.measIndex = some s ∧ TiledC l (s + 6) e else TiledC l s e

theorem packIMUs_tiled {k : Int} : ∀ {L : List IMU} {p : Pack} {r : List IMU × Pack}, packIMUs k L p = .ok r → TiledI k r.1 p.cur r.2.cur
  | [], p, r, h => by cases h; rfl
  | m :: L, p, r, h => by
    unfold packIMUs at h
    split_ifs at h with ht
    · simp only [Res.bind_eq_ok] at h
      obtain ⟨s, h1, y, h2, ca, h3, cov, h4, cg, h5, cov', h6, r', h7, h8⟩ := h
      cases h8
      have := packIMUs_tiled h7
      unfold TiledI
      rw [if_pos ht]
      exact ⟨rfl, this⟩
    · simp only [Res.bind_eq_ok] at h
      obtain ⟨r', h7, h8⟩ := h
      cases h8
      have := packIMUs_tiled h7
      unfold TiledI
      rw [if_neg ht]
      exact this

theorem packContacts_tiled : ∀ {L : List Contact} {p : Pack} {r : List Contact × Pack}, packContacts L p = .ok r → TiledC r.1 p.cur r.2.cur
  | [], p, r, h => by cases h; rfl
  | m :: L, p, r, h => by
    unfold packContacts at h
    split_ifs at h with ht
    · simp only [Res.bind_eq_ok] at h
      obtain ⟨s, h1, y, h2, M, h3, cov, h4, r', h7, h8⟩ := h
      cases h8
      have := packContacts_tiled h7
      unfold TiledC
      rw [if_pos ht]
      exact ⟨rfl, this⟩
    · simp only [Res.bind_eq_ok] at h
      obtain ⟨r', h7, h8⟩ := h
      cases h8
      have := packContacts_tiled h7
      unfold TiledC
      rw [if_neg ht]
      exact this

/-! ## The prediction of the measurement -/

/-- The kinematics of an IMU, with which its measurement can be predicted. -/
def Sensing (k : Kin) : Prop := ∃ p R v w a x, k.Has ⟨some p, some R, some v, some w, some a, x⟩

theorem measureIMU_live {m : IMU} {b : Buf} {k : Kin} {l : List ℝ} {a : Value} (hb : b.Holds l) (hk : k.Has a) (ha : a.Full) (ht : m.time = o.kData)
    (hi : m.measIndex = some l.length) (hm : Sensing m.kin) (hs : l.length + 6 ≤ b.size) :
    ∃ b' k' l', measureIMU o (b, k) m = .ok (b', k') ∧ b'.Holds l' ∧ b'.size = b.size ∧ l'.length = l.length + 6 ∧ k'.Has a := by
  obtain ⟨p, R, v, w, x, y, rfl⟩ := ha
  obtain ⟨p', R', v', w', x', y', hm⟩ := hm
  obtain ⟨g, g1, g2, eg, hg, hg1, -⟩ := Kin.product_spec (k := Kin.new) hk hm rfl (Or.inl rfl)
  obtain ⟨S, og, eS, -⟩ : ∃ S og, g.ori.toMatrix3 = .ok (S, og) ∧ True := by
    obtain ⟨og, e, -⟩ := hg.ori.toMatrix3
    exact ⟨_, og, e, trivial⟩
  obtain ⟨ac, hac⟩ : ∃ q, g.linAcc.read dbg = .ok q := ⟨_, hg.linAcc.read⟩
  obtain ⟨om, hom⟩ : ∃ q, g.angVel.read dbg = .ok q := ⟨_, hg.angVel.read⟩
  obtain ⟨b1, e1, z1, -⟩ := bufSet_live (b := b) (i := l.length) (Sᵀ *ᵥ (ac + gravity)) (by omega)
  have q1 := hb.setSeg e1
  obtain ⟨b2, e2, z2, -⟩ := bufSet_live (b := b1) (i := l.length + 3) (Sᵀ *ᵥ om) (by omega)
  have l1 : (l ++ List.ofFn (Sᵀ *ᵥ (ac + gravity))).length = l.length + 3 := by simp
  have q2 := q1.1.setSeg (by rw [l1]; exact e2)
  refine ⟨b2, g1, _, ?_, q2.1, by omega, by simp, hg1⟩
  unfold measureIMU
  rw [if_pos ht, Kin.product, eg]
  simp only [Res.ok_bind, eS, hi, rd, hac, e1, hom, e2]

theorem measureIMUs_live {a : Value} (ha : a.Full) : ∀ {L : List IMU} {b : Buf} {k : Kin} {l : List ℝ} {e : ℕ}, b.Holds l → k.Has a → TiledI o.kData L l.length e →
    (∀ m ∈ L, m.time = o.kData → Sensing m.kin) → e ≤ b.size →
    ∃ b' k' l', L.foldlM (measureIMU o) (b, k) = .ok (b', k') ∧ b'.Holds l' ∧ b'.size = b.size ∧ l'.length = e ∧ k'.Has a ∧ l.length ≤ e
  | [], b, k, l, e, hb, hk, ht, _, _ => ⟨b, k, l, rfl, hb, rfl, ht, hk, ht.le⟩
  | m :: L, b, k, l, e, hb, hk, ht, hm, he => by
    unfold TiledI at ht
    split_ifs at ht with htm
    · have hle : ∀ {L : List IMU} {s e : ℕ}, TiledI o.kData L s e → s ≤ e := by
        intro L
        induction L with
        | nil => intro s e h; exact le_of_eq h
        | cons c l ih =>
          intro s e h
          unfold TiledI at h
          split_ifs at h
          · have := ih h.2; omega
          · exact ih h
      have h6 := hle ht.2
      obtain ⟨b1, k1, l1, e1, hb1, z1, hl1, hk1⟩ := measureIMU_live hb hk ha htm ht.1 (hm m (by simp) htm) (by omega)
      obtain ⟨b2, k2, l2, e2, hb2, z2, hl2, hk2, hle2⟩ := measureIMUs_live ha hb1 hk1 (by rw [hl1]; exact ht.2) (fun m' h' => hm m' (by simp [h'])) (by omega)
      exact ⟨b2, k2, l2, by rw [List.foldlM_cons, e1, Res.ok_bind, e2], hb2, by omega, hl2, hk2, by omega⟩
    · obtain ⟨b2, k2, l2, e2, hb2, z2, hl2, hk2, hle2⟩ := measureIMUs_live ha hb hk ht (fun m' h' => hm m' (by simp [h'])) he
      refine ⟨b2, k2, l2, ?_, hb2, z2, hl2, hk2, hle2⟩
      rw [List.foldlM_cons, measureIMU, if_neg htm, Res.ok_bind, e2]

theorem measureContacts_live {x : DVec} (hx : x.size = 19 + ni * 3 + nc * 13) : ∀ {L : List Contact} {b : Buf} {l : List ℝ} {e : ℕ}, b.Holds l → TiledC L l.length e →
    (∀ c ∈ L, c.isSet = true → ContactReady nc ni c) → (∀ c ∈ L, c.withRealSensor = true → c.isSet = true ∧ c.time = o.kData) → e ≤ b.size →
    ∃ b' l', L.foldlM (measureContact o x) b = .ok b' ∧ b'.Holds l' ∧ b'.size = b.size ∧ l'.length = e
  | [], b, l, e, hb, ht, _, _, _ => ⟨b, l, rfl, hb, rfl, ht⟩
  | c :: L, b, l, e, hb, ht, hc, hw, he => by
    unfold TiledC at ht
    split_ifs at ht with htm
    · have hle : ∀ {L : List Contact} {s e : ℕ}, TiledC L s e → s ≤ e := by
        intro L
        induction L with
        | nil => intro s e h; exact le_of_eq h
        | cons c l ih =>
          intro s e h
          unfold TiledC at h
          split_ifs at h
          · have := ih h.2; omega
          · exact ih h
      have h6 := hle ht.2
      obtain ⟨hs, htime⟩ := hw c (by simp) htm
      obtain ⟨⟨a, b', ea, eb, h1, h2, h3⟩, -, -⟩ := hc c (by simp) hs
      obtain ⟨w, ew⟩ := seg_live (n := 6) (i := a + 7) (v := x) (by omega)
      obtain ⟨b1, e1, z1, -⟩ := bufSet_live (b := b) (i := l.length) w (by omega)
      have q1 := hb.setSeg e1
      have hl1 : (l ++ List.ofFn w).length = l.length + 6 := by simp
      obtain ⟨b2, l2, e2, hb2, z2, hl2⟩ := measureContacts_live hx q1.1 (by rw [hl1]; exact ht.2) (fun m' h' => hc m' (by simp [h'])) (fun m' h' => hw m' (by simp [h']))
        (by omega)
      refine ⟨b2, l2, ?_, hb2, by omega, hl2⟩
      rw [List.foldlM_cons, measureContact, if_pos ⟨hs, htime, htm⟩, ea, Res.ok_bind, ew, Res.ok_bind, ht.1, rd, Res.ok_bind, e1, Res.ok_bind, e2]
    · obtain ⟨b2, l2, e2, hb2, z2, hl2⟩ := measureContacts_live hx hb ht (fun m' h' => hc m' (by simp [h'])) (fun m' h' => hw m' (by simp [h'])) he
      refine ⟨b2, l2, ?_, hb2, z2, hl2⟩
      rw [List.foldlM_cons, measureContact, if_neg (by tauto), Res.ok_bind, e2]

/-- The sensors of the iteration have their positions in the measurement vector, and the counters agree. -/
structure Packed (o : Observer) (n : ℕ) : Prop where
  run : o.kEst ≠ o.kData
  abs : o.abs.time ≠ o.kData
  size : 6 * (o.imus.countP fun m => decide (m.time = o.kData)) + o.nReal.toNat * 6 = n
  nReal : 0 ≤ o.nReal
  tiles : ∃ s, TiledI o.kData o.imus 0 s ∧ TiledC o.contacts s n
  imu : ∀ m ∈ o.imus, m.time = o.kData → Sensing m.kin
  sensor : ∀ c ∈ o.contacts, c.withRealSensor = true → c.isSet = true ∧ c.time = o.kData

theorem measureDynamics_live (hr : Ready nc ni o) {n : ℕ} (hp : Packed o n) {x : DVec} (hx : GoodState nc ni x) :
    ∃ y, o.measureDynamics x o.kData = .ok y ∧ y.size = n := by
  have en : o.getMeasurementSize = .ok n := by
    rw [getMeasurementSize, if_pos hp.run, if_neg (by have := hp.nReal; omega), if_neg hp.abs, add_zero, hp.size]
  obtain ⟨k, a, ek, hk, ha⟩ := stateKine_live hr hx
  obtain ⟨s, t1, t2⟩ := hp.tiles
  have hle : ∀ {L : List Contact} {s e : ℕ}, TiledC L s e → s ≤ e := by
    intro L
    induction L with
    | nil => intro s e h; exact le_of_eq h
    | cons c l ih =>
      intro s e h
      unfold TiledC at h
      split_ifs at h
      · have := ih h.2; omega
      · exact ih h
  have hs := hle t2
  obtain ⟨b1, k1, l1, e1, hb1, z1, hl1, -, -⟩ := measureIMUs_live (o := o) ha (Buf.Holds.new n) hk t1 hp.imu hs
  obtain ⟨b2, l2, e2, hb2, z2, hl2⟩ := measureContacts_live (o := o) hx.size hb1 (by rw [hl1]; exact t2) hr.con hp.sensor (le_of_eq z1.symm)
  have zn : b2.size = n := by rw [z2, z1]; rfl
  obtain ⟨y, ey⟩ := hb2.isDone (by omega)
  obtain ⟨-, hy, -⟩ := hb2.done ey
  refine ⟨y, ?_, by omega⟩
  rw [measureDynamics, en, Res.ok_bind, ek, Res.ok_bind, e1, Res.ok_bind]
  simp only [e2, Res.ok_bind, measurePose, if_neg hp.abs, ey]

/-! ## The construction of the measurement -/

/-- An IMU of the iteration: it has a signal, positive definite covariances, and kinematics. -/
structure IMUReady (m : IMU) : Prop where
  signal : ∃ s, m.signal = some s
  covAcc : ∃ M, m.covAcc = some M ∧ M.PosDef
  covGyro : ∃ M, m.covGyro = some M ∧ M.PosDef
  kin : Sensing m.kin
/-- A contact with a sensor: it has a signal and a positive definite covariance. -/
structure SensorReady (c : Contact) : Prop where
  wrench : ∃ w, c.wrench = some w
  cov : ∃ M, c.sensorCov = ⟨true, some M⟩ ∧ M.PosDef

theorem setBlock_live {n i N : ℕ} {M : DMat} (B : Matrix (Fin n) (Fin n) ℝ) (hr : M.rows = N) (hc : M.cols = N) (h : i + n ≤ N) :
    ∃ M', M.setBlock n i i (dm B) = .ok M' ∧ M'.rows = N ∧ M'.cols = N := by
  rw [DMat.setBlock, if_pos (by omega), dif_pos ⟨rfl, rfl⟩]
  exact ⟨_, rfl, hr, hc⟩

theorem packIMUs_live {k : Int} {n : ℕ} : ∀ {L : List IMU} {p : Pack}, (∀ m ∈ L, m.time = k → IMUReady m) → p.y.size = n → p.cov.rows = n → p.cov.cols = n →
    p.cur + 6 * L.countP (fun m => decide (m.time = k)) ≤ n →
    ∃ r, packIMUs k L p = .ok r ∧ r.2.y.size = n ∧ r.2.cov.rows = n ∧ r.2.cov.cols = n ∧ r.2.cur = p.cur + 6 * L.countP (fun m => decide (m.time = k))
  | [], p, _, h1, h2, h3, h4 => ⟨([], p), rfl, h1, h2, h3, by simp⟩
  | m :: L, p, hm, h1, h2, h3, h4 => by
    unfold packIMUs
    split_ifs with ht
    · rw [List.countP_cons_of_pos (by simp [ht])] at h4 ⊢
      obtain ⟨⟨s, es⟩, ⟨A, eA, -⟩, ⟨G, eG, -⟩, -⟩ := hm m (by simp) ht
      obtain ⟨y, ey, zy, -⟩ := bufSet_live (b := p.y) (i := p.cur) s (by omega)
      obtain ⟨M1, e1, r1, c1⟩ := setBlock_live (i := p.cur) A h2 h3 (by omega)
      obtain ⟨M2, e2, r2, c2⟩ := setBlock_live (i := p.cur + 3) G r1 c1 (by omega)
      obtain ⟨r, er, q1, q2, q3, q4⟩ := packIMUs_live (k := k) (L := L) (p := ⟨y, M2, p.cur + 3 + 3⟩) (fun m' h' => hm m' (by simp [h'])) (by simpa using zy.trans h1) r2 c2
        (by simp only; omega)
      refine ⟨({ m with measIndex := some p.cur } :: r.1, r.2),
        by rw [es, rd, Res.ok_bind, ey, Res.ok_bind, eA, rd, Res.ok_bind, e1, Res.ok_bind, eG, rd, Res.ok_bind, e2, Res.ok_bind, er, Res.ok_bind], q1, q2, q3, ?_⟩
      simp only at q4 ⊢
      omega
    · rw [List.countP_cons_of_neg (by simp [ht])] at h4 ⊢
      obtain ⟨r, er, q⟩ := packIMUs_live (k := k) (L := L) (p := p) (fun m' h' => hm m' (by simp [h'])) h1 h2 h3 h4
      exact ⟨(m :: r.1, r.2), by rw [er, Res.ok_bind], q⟩

theorem packContacts_live {n : ℕ} : ∀ {L : List Contact} {p : Pack}, (∀ c ∈ L, c.withRealSensor = true → SensorReady c) → p.y.size = n → p.cov.rows = n → p.cov.cols = n →
    p.cur + 6 * L.countP (fun m => m.withRealSensor) ≤ n →
    ∃ r, packContacts L p = .ok r ∧ r.2.y.size = n ∧ r.2.cov.rows = n ∧ r.2.cov.cols = n ∧ r.2.cur = p.cur + 6 * L.countP (fun m => m.withRealSensor)
  | [], p, _, h1, h2, h3, h4 => ⟨([], p), rfl, h1, h2, h3, by simp⟩
  | m :: L, p, hm, h1, h2, h3, h4 => by
    unfold packContacts
    split_ifs with ht
    · rw [List.countP_cons_of_pos (by simp [ht])] at h4 ⊢
      obtain ⟨⟨s, es⟩, ⟨A, eA, -⟩⟩ := hm m (by simp) ht
      obtain ⟨y, ey, zy, -⟩ := bufSet_live (b := p.y) (i := p.cur) s (by omega)
      obtain ⟨M1, e1, r1, c1⟩ := setBlock_live (i := p.cur) A h2 h3 (by omega)
      obtain ⟨r, er, q1, q2, q3, q4⟩ := packContacts_live (L := L) (p := ⟨y, M1, p.cur + 6⟩) (fun m' h' => hm m' (by simp [h'])) (by simpa using zy.trans h1) r1 c1
        (by simp only; omega)
      refine ⟨({ m with measIndex := some p.cur } :: r.1, r.2),
        by rw [es, rd, Res.ok_bind, ey, Res.ok_bind, eA, Ori.read_true, Res.ok_bind, e1, Res.ok_bind, er, Res.ok_bind], q1, q2, q3, ?_⟩
      simp only at q4 ⊢
      omega
    · rw [List.countP_cons_of_neg (by simp [ht])] at h4 ⊢
      obtain ⟨r, er, q⟩ := packContacts_live (L := L) (p := p) (fun m' h' => hm m' (by simp [h'])) h1 h2 h3 h4
      exact ⟨(m :: r.1, r.2), by rw [er, Res.ok_bind], q⟩

/-- The conditions for a call of `update()` to run the filter and return. -/
structure CanUpdate (nc ni : ℕ) (o : Observer) : Prop where
  ready : Ready nc ni o
  run : o.kEst ≠ o.kData
  abs : o.abs.time ≠ o.kData
  contacts : ∀ c ∈ o.contacts, c.isSet = true → c.time = o.kData
  nIMU : o.nIMU = o.imus.countP fun m => decide (m.time = o.kData)
  nReal : o.nReal = o.contacts.countP fun c => c.withRealSensor
  imus : ∀ m ∈ o.imus, m.time = o.kData → IMUReady m
  sensors : ∀ c ∈ o.contacts, c.withRealSensor = true → SensorReady c
  dx : o.dx.size = 18 + ni * 3 + 12 * nc
  state : ∃ x t, o.ekf.x = some (x, t) ∧ GoodState nc ni x

theorem mem_signal_blocks {L : List IMU} {k : Int} (h : ∀ m ∈ L, m.time = k → IMUReady m) : ∀ B ∈ L.flatMap (IMU.blocks k), B.2.PosDef := by
  intro B hB
  obtain ⟨m, hm, hB⟩ := List.mem_flatMap.1 hB
  unfold IMU.blocks at hB
  split_ifs at hB with ht
  · obtain ⟨-, ⟨A, eA, hA⟩, ⟨G, eG, hG⟩, -⟩ := h m hm ht
    rw [eA, eG] at hB
    simp at hB
    rcases hB with rfl | rfl
    · exact hA
    · exact hG
  · simp at hB

theorem mem_contact_blocks {L : List Contact} (h : ∀ m ∈ L, m.withRealSensor = true → SensorReady m) : ∀ B ∈ L.flatMap Contact.blocks, B.2.PosDef := by
  intro B hB
  obtain ⟨m, hm, hB⟩ := List.mem_flatMap.1 hB
  unfold Contact.blocks at hB
  split_ifs at hB with ht
  · obtain ⟨-, ⟨A, eA, hA⟩⟩ := h m hm ht
    rw [eA, Ori.read_true] at hB
    simp at hB
    subst hB
    exact hA
  · simp at hB

theorem blockDiag_kernel : ∀ (l : List (Σ n, Matrix (Fin n) (Fin n) ℝ)), (∀ B ∈ l, B.2.PosDef) → ∀ x : ℕ → ℝ,
    (∀ r < blockRows l, ∑ c ∈ Finset.range (blockRows l), blockDiag l r c * x c = 0) → ∀ r < blockRows l, x r = 0
  | [], _, x, _, r, hr => by simp [blockRows] at hr
  | B :: l, hb, x, h, r, hr => by
    have hs : blockRows (B :: l) = B.1 + blockRows l := by simp [blockRows]
    rw [hs] at h hr
    by_cases h1 : r < B.1
    · have hB : B.2 *ᵥ (fun i => x i) = 0 := by
        funext i
        have := h i (by omega)
        rw [Finset.sum_range_add, Finset.sum_eq_zero (s := Finset.range (blockRows l)), add_zero] at this
        · rw [← Fin.sum_univ_eq_sum_range (fun c => blockDiag (B :: l) i c * x c)] at this
          simp only [Matrix.mulVec, dotProduct, Pi.zero_apply]
          rw [← this]
          refine Finset.sum_congr rfl fun c _ => ?_
          rw [blockDiag, dif_pos ⟨i.2, c.2⟩]
        · intro c _
          rw [blockDiag, dif_neg (by omega), if_neg (by omega), zero_mul]
      have hu := (hb B (by simp)).isUnit
      have := Matrix.mulVec_injective_iff_isUnit.2 hu (hB.trans (Matrix.mulVec_zero B.2).symm)
      exact congrFun this ⟨r, h1⟩
    · have := blockDiag_kernel l (fun B' h' => hb B' (by simp [h'])) (fun c => x (B.1 + c)) (fun q hq => ?_) (r - B.1) (by omega)
      · rwa [show B.1 + (r - B.1) = r by omega] at this
      · have := h (B.1 + q) (by omega)
        rw [Finset.sum_range_add, Finset.sum_eq_zero (s := Finset.range B.1), zero_add] at this
        · rw [← this]
          refine Finset.sum_congr rfl fun c _ => ?_
          rw [blockDiag, dif_neg (by omega), if_pos (by omega), Nat.add_sub_cancel_left, Nat.add_sub_cancel_left]
        · intro c hc
          rw [Finset.mem_range] at hc
          rw [blockDiag, dif_neg (by omega), if_neg (by omega), zero_mul]

theorem posDef_of_kernel {N : ℕ} {M : Matrix (Fin N) (Fin N) ℝ} (hp : M.PosSemidef) (h : ∀ x, M *ᵥ x = 0 → x = 0) : M.PosDef := by
  refine hp.posDef_iff_isUnit.2 (Matrix.mulVec_injective_iff_isUnit.1 fun x y hxy => ?_)
  exact sub_eq_zero.1 (h _ (by rw [Matrix.mulVec_sub]; exact sub_eq_zero.2 hxy))

/-- A block diagonal matrix made of positive definite blocks, without completion. -/
theorem CovHolds.posDef {M : DMat} {N : ℕ} {bl : List (Σ n, Matrix (Fin n) (Fin n) ℝ)} (h : CovHolds M N bl) (hN : blockRows bl = N) (hb : ∀ B ∈ bl, B.2.PosDef) :
    ∃ R : Matrix (Fin N) (Fin N) ℝ, M = ⟨N, N, R⟩ ∧ R.PosDef := by
  have hp := h.psd fun B hB => (hb B hB).posSemidef
  obtain ⟨-, rfl⟩ := h
  refine ⟨_, rfl, ?_⟩
  have hp := isPSD_mk.1 hp
  refine posDef_of_kernel hp fun x h0 => ?_
  have := blockDiag_kernel bl hb (fun c => if hc : c < N then x ⟨c, hc⟩ else 0) ?_
  · funext r
    have h1 := this r (by rw [hN]; exact r.2)
    simp only [r.2, dif_pos] at h1
    exact h1
  · intro r hr
    rw [hN] at hr ⊢
    have h1 := congrFun h0 ⟨r, hr⟩
    rw [← Fin.sum_univ_eq_sum_range (fun c => blockDiag bl r c * if hc : c < N then x ⟨c, hc⟩ else 0)]
    simp only [Fin.is_lt, dif_pos]
    exact h1

theorem buildMeasurement_live (hc : CanUpdate nc ni o) : ∃ o' y cov, o.buildMeasurement = .ok (o', y, cov) := by
  set n := 6 * (o.imus.countP fun m => decide (m.time = o.kData)) + 6 * o.contacts.countP (fun c => c.withRealSensor) with hn
  have e0 : o.checkContacts = .ok () := by
    rw [checkContacts, show (o.contacts.all fun c => !c.isSet || decide (c.time = o.kData)) = true from ?_]
    · rfl
    · rw [List.all_eq_true]
      intro c h
      cases hs : c.isSet
      · rfl
      · simp [hc.contacts c h hs]
  have e1 : o.measurementSizes = .ok (n, n) := by
    have h1 : (6 * o.nIMU + 6 * o.nReal) = (n : Int) := by rw [hc.nIMU, hc.nReal, hn]; push_cast; ring
    rw [measurementSizes, h1, if_neg (by omega)]
    simp only [if_neg hc.abs, Int.toNat_natCast]
  obtain ⟨i, e2, y2, r2, c2, k2⟩ := packIMUs_live (n := n) (p := ⟨Buf.new n, DMat.zero n n, 0⟩) hc.imus rfl rfl rfl (by simp only; omega)
  obtain ⟨c, e3, y3, r3, c3, k3⟩ := packContacts_live (n := n) (p := i.2) hc.sensors y2 r2 c2 (by rw [k2]; simp only; omega)
  have e4 : o.packPose c.2 = .ok (o.abs, c.2) := by rw [packPose, if_neg hc.abs]
  obtain ⟨g1, g2⟩ := packIMUs_holds (l := []) (bl := []) ⟨Buf.Holds.new n, rfl, CovHolds.zero n, rfl, rfl⟩ e2
  obtain ⟨g3, g4⟩ := packContacts_holds g1 e3
  obtain ⟨y, ey⟩ := g3.y.isDone (by rw [← g3.cur, y3, k3, k2]; simp only; omega)
  exact ⟨_, y, c.2.cov, by rw [buildMeasurement, e0, Res.ok_bind, e1, Res.ok_bind, e2, Res.ok_bind, e3, Res.ok_bind, e4, Res.ok_bind, ey, Res.ok_bind]⟩

theorem Ready.congr {o' : Observer} (hr : Ready nc ni o) (h1 : o'.maxContacts = o.maxContacts) (h2 : o'.maxIMU = o.maxIMU) (h3 : o'.imus.length = o.imus.length)
    (h4 : ∀ c' ∈ o'.contacts, ∃ c ∈ o.contacts, ∃ j, c' = { c with measIndex := j }) (h5 : o'.body = o.body) (h6 : o'.mass = o.mass) : Ready nc ni o' where
  pos := hr.pos
  maxC := h1.trans hr.maxC
  maxI := h2.trans hr.maxI
  imuLen := h3.trans hr.imuLen
  con := by
    intro c hc hs
    obtain ⟨c0, h0, j, rfl⟩ := h4 c hc
    have := hr.con c0 h0 hs
    exact ⟨this.idx, this.kin, this.visco⟩
  body := by rw [h5, h6]; exact hr.body

theorem measurementDifference_live {n : ℕ} (h1 : 6 * o.nIMU + 6 * o.nReal = n) (h2 : o.measTangentSize = n) (h3 : o.abs.time ≠ o.kData) (y y' : DVec) (hy : y.size = n)
    (hy' : y'.size = n) : ∃ d, o.measurementDifference y y' = .ok d ∧ d.size = n := by
  have e1 : o.sensorSize = .ok n := by rw [sensorSize, h1, if_neg (by omega)]; simp
  obtain ⟨s1, q1⟩ := seg_live (n := n) (i := 0) (v := y) (by omega)
  obtain ⟨s2, q2⟩ := seg_live (n := n) (i := 0) (v := y') (by omega)
  obtain ⟨b, e2, z2, -⟩ := bufSet_live (b := Buf.new n) (i := 0) (s1 - s2) (by simp [Buf.new])
  have hb := (Buf.Holds.new n).setSeg e2
  have zb : b.size = n := z2
  obtain ⟨d, ed⟩ := hb.1.isDone (by simp [zb])
  obtain ⟨-, hd, -⟩ := hb.1.done ed
  refine ⟨d, ?_, by omega⟩
  rw [measurementDifference, e1, Res.ok_bind, h2, diffSeg, q1, Res.ok_bind, q2, Res.ok_bind, e2, Res.ok_bind, opt, if_neg (by simpa using h3), Res.ok_bind, ed]

theorem forall₂_countP {α : Type} {r : α → α → Prop} {p : α → Bool} (h : ∀ a b, r a b → p b = p a) : ∀ {l l' : List α}, List.Forall₂ r l l' → l'.countP p = l.countP p
  | _, _, .nil => rfl
  | _, _, .cons h1 h2 => by simp only [List.countP_cons, forall₂_countP h h2, h _ _ h1]

/-- `update()` returns; the estimation becomes the one of the time of the sensors, with a unit quaternion, and the rest is left. -/
theorem update_live (hi : Inv nc ni o) (hq : IsPSD o.ekf.st.q) (hp : IsPSD o.ekf.st.pr) (hc : CanUpdate nc ni o) :
    ∃ o' x, o.update = .ok o' ∧ GoodState nc ni x ∧ o'.ekf.x = some (x, o.kData) ∧ o'.x = x ∧
      ∃ imus contacts abs m mt e k, o' = { o with measSize := m, measTangentSize := mt, imus := imus, contacts := contacts, abs := abs, ekf := e, x := x, kEst := o.kEst + 1, stateKin := k } ∧
      List.Forall₂ (fun m m' => ∃ j, m' = { m with measIndex := j }) o.imus imus ∧
      List.Forall₂ (fun m m' => ∃ j, m' = { m with measIndex := j }) o.contacts contacts ∧ Moving k := by
  set n := 6 * (o.imus.countP fun m => decide (m.time = o.kData)) + 6 * o.contacts.countP (fun c => c.withRealSensor) with hn
  have h1 : (6 * o.nIMU + 6 * o.nReal) = (n : Int) := by rw [hc.nIMU, hc.nReal, hn]; push_cast; ring
  obtain ⟨o1, y, cov, hb⟩ := buildMeasurement_live hc
  obtain ⟨hy, hcov, hys, hms, hms', hmt⟩ := buildMeasurement_holds hb
  obtain ⟨hi1, hE, hD⟩ := inv_buildMeasurement hi hb
  have hb' := hb
  simp only [buildMeasurement, Res.bind_eq_ok] at hb'
  obtain ⟨_, -, n', -, i, p1, c, p2, a, p3, y', -, p4⟩ := hb'
  rw [packPose, if_neg hc.abs] at p3
  cases p3
  have t1 := packIMUs_tiled p1
  have t2 := packContacts_tiled p2
  have f1 := packIMUs_forall p1
  have f2 := packContacts_forall p2
  obtain ⟨g1, g2⟩ := packIMUs_holds (l := []) (bl := []) ⟨Buf.Holds.new n'.1, rfl, CovHolds.zero n'.2, rfl, rfl⟩ p1
  obtain ⟨g3, g4⟩ := packContacts_holds g1 p2
  cases p4
  simp only [if_neg hc.abs, Nat.add_zero, Int.add_zero] at hms hms' hmt
  have em : n'.1 = n := by omega
  have et : n'.2 = n := by omega
  set o1 : Observer := { o with measSize := n'.1, measTangentSize := n'.2, imus := i.1, contacts := c.1, abs := o.abs } with ho1
  have hr1 : Ready nc ni o1 := hc.ready.congr rfl rfl f1.length_eq.symm (fun c' h' => forall₂_mem f2 c' h') rfl rfl
  have cnt : i.1.countP (fun m => decide (m.time = o.kData)) = o.imus.countP (fun m => decide (m.time = o.kData)) := by
    exact forall₂_countP (fun m m' h => by obtain ⟨j, rfl⟩ := h; rfl) f1
  have hpk : Packed o1 n := by
    refine ⟨hc.run, hc.abs, ?_, ?_, ⟨i.2.cur, t1, ?_⟩, ?_, ?_⟩
    · show 6 * i.1.countP (fun m => decide (m.time = o.kData)) + o.nReal.toNat * 6 = n
      rw [cnt, hc.nReal]
      omega
    · show 0 ≤ o.nReal
      rw [hc.nReal]; omega
    · have : c.2.cur = n := by
        have h6 := g3.cur
        rw [List.length_append, g4, List.nil_append, g2] at h6
        omega
      rw [← this]; exact t2
    · intro m hm ht
      obtain ⟨m0, h0, j, rfl⟩ := forall₂_mem f1 m hm
      exact (hc.imus m0 h0 ht).kin
    · intro m hm ht
      obtain ⟨m0, h0, j, rfl⟩ := forall₂_mem f2 m hm
      have hs := hi.2.conSensor m0 h0 ht
      exact ⟨hs, hc.contacts m0 h0 hs⟩
  have hpb : poseBlocks o = [] := by rw [poseBlocks, if_neg hc.abs]
  rw [hpb, List.append_nil] at hcov
  have hrows : blockRows (o.imus.flatMap (IMU.blocks o.kData) ++ o.contacts.flatMap Contact.blocks) = n := by
    have h6 := g3.rows
    have h7 := g3.cur
    rw [List.nil_append] at h6
    rw [List.length_append, g4, List.nil_append, g2] at h7
    omega
  obtain ⟨R, eR, hR⟩ := (CovHolds.posDef (N := n) (by rw [← et]; exact hcov) hrows (fun B hB => by
    rcases List.mem_append.1 hB with hB | hB
    · exact mem_signal_blocks hc.imus B hB
    · exact mem_contact_blocks hc.sensors B hB))
  have hk : o.kData = o.kEst + 1 := by
    have := hi.2.time
    have := hc.run
    omega
  obtain ⟨x, t, ex, hx⟩ := hc.state
  have ht : t = o.kEst := by
    obtain ⟨v, ev, -⟩ := hi.2.ekf.x
    rw [ex] at ev
    cases ev
    rfl
  subst ht
  have hbd : EkfOk (19 + ni * 3 + nc * 13) (18 + ni * 3 + 12 * nc) (o1.bound o.ekf) o.kEst :=
    let he := hi.2.ekf
    ⟨he.n, he.nt, he.p, he.x, he.pr, he.q, he.xbar, he.ybar, he.y⟩
  obtain ⟨e, xhat, he, hex, hgx⟩ := fdStep_live (s := o1.bound o.ekf) (f := o1.functor) (y := y) (dx := o.dx) (v := x) (m := n) hbd ex rfl (GoodState nc ni) hx
    (fun x hx => stateDynamics_live hr1 hx) (fun x d hx hd => hx.sum hr1 hd) (fun w x x' hw h1 h2 => stateDifference_live hr1 hw h1.size h2.size)
    (fun x hx => by rw [← hk]; exact measureDynamics_live hr1 hpk hx)
    (fun y y' hy hy' => measurementDifference_live (o := o1) h1 et hc.abs y y' hy hy') hc.dx (hys.trans em) hR hq hp
  have hrun : o1.runFilter y c.2.cov = .ok e := by
    have h0 : o1.runFilter y c.2.cov = fdStep (o1.bound o.ekf) n'.1 n'.2 y o.dx c.2.cov o.kData := rfl
    rw [h0, eR, em, et, hk]
    exact he
  obtain ⟨sg, es⟩ := seg_live (n := 13) (i := kineIndex) (v := xhat) (by simp [kineIndex, hgx.size]; omega)
  set o2 : Observer := { o1 with ekf := e, x := xhat, kEst := o.kEst + 1, stateKin := loaded o.stateKin.reset xhat } with ho2
  have hu : updateKine { o1 with ekf := e, x := xhat, kEst := o1.kEst + 1, stateKin := o1.stateKin.reset } = .ok o2 := by
    have : xhat.seg 13 kineIndex = .ok sg := es
    simp only [updateKine, this, Res.ok_bind, fromVector_loaded _ es]
    rfl
  have hr2 : Ready nc ni o2 := hr1.congr rfl rfl rfl (fun c' h' => ⟨c', h', c'.measIndex, rfl⟩) rfl rfl
  have hv : val e.x = .ok xhat := by rw [hex]; rfl
  have hkin : (loaded o.stateKin.reset xhat).Has _ := loaded_has _ hgx.quat rfl rfl
  by_cases hw : o.withAcc = true
  · obtain ⟨w, ew⟩ := addWrench_live hr2 hgx.size (o2.addForce, o2.addTorque)
    obtain ⟨b, hbd, hm, hd⟩ := hr2.body
    obtain ⟨a, α, k', ec, hk'⟩ := computeAccelerations_live (o := o2) (F := w.1) (M := w.2) hkin hbd hm hd
    refine ⟨{ o2 with stateKin := { k' with linAcc := k'.linAcc.assign a, angAcc := k'.angAcc.assign α } }, xhat, ?_, hgx, by rw [hk]; exact hex, rfl,
      i.1, c.1, o.abs, n'.1, n'.2, e, _, rfl, f1, f2, _, _, _, _, some a, some α, hk'.pos, hk'.ori, hk'.linVel, hk'.angVel, rfl, rfl⟩
    rw [update, if_pos hc.run, hb, Res.ok_bind]
    simp only [hrun, Res.ok_bind, afterFilter, hv, hu]
    rw [if_pos (by exact hw), estimateAccelerations]
    rw [show o2.x = xhat from rfl, ew, Res.ok_bind, show o2.stateKin = loaded o.stateKin.reset xhat from rfl, ec, Res.ok_bind]
  · refine ⟨o2, xhat, ?_, hgx, by rw [hk]; exact hex, rfl, i.1, c.1, o.abs, n'.1, n'.2, e, _, rfl, f1, f2, _, _, _, _, _, _, hkin⟩
    rw [update, if_pos hc.run, hb, Res.ok_bind]
    simp only [hrun, Res.ok_bind, afterFilter, hv, hu]
    rw [if_neg (by exact hw)]

end StateObs.KO
