import Verif.Sensor.Model
import Verif.OutcomeLaws
import Verif.Rot.Lemmas
import Mathlib.Data.List.ReduceOption
/-!
# Properties C65, C66: simulated sensors
-/

namespace StateObs.Sensor
open StateObs Matrix Rot Kine

variable {M R : Type} (K : Kind M)

/-- Calls that do not set a new state, nor change what the sensor is. -/
def Between : Op M R → Prop
  | .getMeasurements _ => True
  | .setNoise _ => True
  | _ => False

/-- For each returned measurement, the noise that was set, if it was asked with noise and one was set (`p`: the noise at the start). -/
def noisyCalls : Option (Noise R) → List (Op M R) → List (Option (Noise R))
  | _, [] => []
  | p, .getMeasurements b :: ops => (if b then p else none) :: noisyCalls p ops
  | _, .setNoise n :: ops => noisyCalls n ops
  | p, _ :: ops => noisyCalls p ops

/-- The sensors of the library return measurements of their declared size. -/
def Sized : Prop := ∀ m v y, K.compute m v = .ok y → y.length = K.measSize

/-- The invariant of reachable sensors. -/
def Inv (s : Sensor M R) : Prop := s.concat > 0 → s.clean.length = K.measSize + s.concat

theorem computeClean_inv {s s' : Sensor M R} (h : computeClean K s = .ok s') (hI : Inv K s) : Inv K s' := by
  rw [computeClean, Res.bind_eq_ok] at h
  obtain ⟨m, hm, h⟩ := h
  by_cases hc : s.concat > 0
  · rw [if_pos hc] at h
    by_cases hd : s.clean.length = m.length + s.direct.length
    · simp only [Res.assert, hd, decide_true, if_true, Res.ok_bind] at h
      obtain rfl : { s with clean := m ++ s.direct, storedClean := true } = s' := by cases h; rfl
      intro _
      have := hI hc
      simp; omega
    · simp [Res.assert, hd] at h
  · rw [if_neg hc] at h
    obtain rfl : { s with clean := m, storedClean := true } = s' := by cases h; rfl
    intro h'; exact absurd h' hc

theorem ensureClean_inv {s s' : Sensor M R} (h : ensureClean K s = .ok s') (hI : Inv K s) : Inv K s' := by
  rw [ensureClean] at h
  split at h
  · obtain rfl : s = s' := by cases h; rfl
    exact hI
  · exact computeClean_inv K h hI

theorem ensureCleanChecked_eq {s s' : Sensor M R} (h : ensureCleanChecked K s = .ok s') : ensureClean K s = .ok s' := by
  rw [ensureCleanChecked] at h
  rw [ensureClean]
  split at h
  · rename_i hc; rw [if_pos hc]; exact h
  · rename_i hc
    rw [if_neg hc]
    split at h
    · exact h
    · cases h

/-- The three ways a measurement is returned. -/
theorem get_cases {s s' : Sensor M R} {r r' : R} {b : Bool} {v : List ℝ} (h : getMeasurements K s r b = .ok (v, s', r')) :
    ((b && s.noise.isSome) = false ∧ ensureClean K s = .ok s' ∧ v = s'.clean ∧ r' = r) ∨
    (b = true ∧ s.noise.isSome = true ∧ s.storedNoisy = true ∧ s' = s ∧ v = s.noisy ∧ r' = r) ∨
    (b = true ∧ s.storedNoisy = false ∧ ∃ n s1, s.noise = some n ∧ ensureCleanChecked K s = .ok s1 ∧ n r s1.clean = .ok (v, r') ∧
      s' = { s1 with noisy := v, storedNoisy := true }) := by
  have nonnoisy : (ensureClean K s >>= fun s => Res.ok (s.clean, s, r)) = .ok (v, s', r') →
      ensureClean K s = .ok s' ∧ v = s'.clean ∧ r' = r := by
    intro h
    rw [Res.bind_eq_ok] at h
    obtain ⟨s1, h1, h⟩ := h
    cases h
    exact ⟨h1, rfl, rfl⟩
  cases b with
  | false => exact .inl ⟨rfl, nonnoisy h⟩
  | true =>
    cases hn : s.noise with
    | none => simp only [getMeasurements, hn] at h; exact .inl ⟨rfl, nonnoisy h⟩
    | some n =>
      simp only [getMeasurements, hn] at h
      refine .inr ?_
      cases hs : s.storedNoisy with
      | true =>
        rw [if_pos hs] at h
        cases h
        exact .inl ⟨rfl, rfl, rfl, rfl, rfl, rfl⟩
      | false =>
        refine .inr ⟨rfl, rfl, ?_⟩
        rw [if_neg (by simp [hs]), Res.bind_eq_ok] at h
        obtain ⟨⟨v1, s1, r1⟩, h1, h⟩ := h
        rw [computeNoisy, Res.bind_eq_ok] at h1
        obtain ⟨s2, h2, h1⟩ := h1
        rw [Res.bind_eq_ok] at h1
        obtain ⟨⟨v3, r3⟩, h3, h1⟩ := h1
        cases h1
        cases h
        exact ⟨n, s1, rfl, h2, h3, rfl⟩

theorem getMeasurements_inv {s s' : Sensor M R} {r r' : R} {b : Bool} {v : List ℝ}
    (h : getMeasurements K s r b = .ok (v, s', r')) (hI : Inv K s) : Inv K s' := by
  rcases get_cases K h with ⟨_, h1, _⟩ | ⟨_, _, _, rfl, _⟩ | ⟨_, _, n, s1, _, h1, _, rfl⟩
  · exact ensureClean_inv K h1 hI
  · exact hI
  · have := ensureClean_inv K (ensureCleanChecked_eq K h1) hI
    exact this

/-- The sensor after `setState`. -/
def afterSet (s : Sensor M R) (v : List ℝ) (k : Int) : Sensor M R :=
  { s with
    direct := v.drop (v.length - s.concat)
    state := v.take (K.stateSize s.mode)
    storedNoisy := false
    storedClean := false
    time := k }

theorem setState_ok {s s' : Sensor M R} {v : List ℝ} {k : Int} (h : setState K s v k = .ok s') :
    s.concat ≤ v.length ∧ K.stateSize s.mode ≤ v.length ∧
    s' = afterSet K s v k := by
  rw [setState, Res.bind_eq_ok] at h
  obtain ⟨d, hd, h⟩ := h
  rw [Res.bind_eq_ok] at h
  obtain ⟨l, hl, h⟩ := h
  rw [tail] at hd
  rw [head] at hl
  split at hd
  · split at hl
    · cases hd; cases hl; cases h
      exact ⟨by assumption, by assumption, rfl⟩
    · cases hl
  · cases hd

theorem exec_inv {s s' : Sensor M R} {r r' : R} {op : Op M R} {o : Option (List ℝ)}
    (h : exec K s r op = .ok (o, s', r')) (hI : Inv K s) : Inv K s' := by
  cases op with
  | setState v k =>
    simp only [exec, Res.bind_eq_ok] at h
    obtain ⟨s1, h1, h⟩ := h
    cases h
    obtain ⟨_, _, rfl⟩ := setState_ok K h1
    exact hI
  | getMeasurements b =>
    simp only [exec, Res.bind_eq_ok] at h
    obtain ⟨⟨v, s1, r1⟩, h1, h⟩ := h
    cases h
    exact getMeasurements_inv K h1 hI
  | concatenateWithInput n =>
    cases h
    intro _; simp [concatenateWithInput]
  | setNoise n => cases h; exact hI
  | setMatrixMode m => cases h; exact hI

theorem run_inv {s s' : Sensor M R} {r r' : R} {ops : List (Op M R)} {o : List (List ℝ)}
    (h : run K s r ops = .ok (o, s', r')) (hI : Inv K s) : Inv K s' := by
  induction ops generalizing s r o with
  | nil => cases h; exact hI
  | cons op ops ih =>
    simp only [run, Res.bind_eq_ok] at h
    obtain ⟨⟨o1, s1, r1⟩, h1, ⟨l, s2, r2⟩, h2, h⟩ := h
    cases h
    exact ih h2 (exec_inv K h1 hI)

/-- What holds between two `setState`: `y` is the computed measurement, `w` the noisy one if it was drawn already. -/
structure At (s : Sensor M R) (y d : List ℝ) (w : Option (List ℝ)) : Prop where
  direct : s.direct = d
  dl : d.length = s.concat
  comp : K.compute s.mode s.state = .ok y
  len : y.length = K.measSize
  inv : Inv K s
  clean : s.storedClean = true → s.clean = y ++ d
  stored : s.storedNoisy = w.isSome
  noisy : ∀ v, w = some v → s.noisy = v

theorem At.ensure {s : Sensor M R} {y d : List ℝ} {w : Option (List ℝ)} (h : At K s y d w) :
    ensureClean K s = .ok { s with clean := y ++ d, storedClean := true } := by
  rw [ensureClean]
  by_cases hs : s.storedClean = true
  · rw [if_pos hs, ← h.clean hs, ← hs]
  · rw [if_neg hs, computeClean, h.comp, Res.ok_bind]
    by_cases hc : s.concat > 0
    · rw [if_pos hc]
      have e : s.clean.length = y.length + s.direct.length := by
        rw [h.inv hc, h.len, h.direct, h.dl]
      rw [Res.assert, if_pos (by simpa using e), Res.ok_bind, h.direct]
    · rw [if_neg hc]
      have : d = [] := List.length_eq_zero_iff.1 (by rw [h.dl]; omega)
      rw [this, List.append_nil]

theorem At.ensured {s : Sensor M R} {y d : List ℝ} {w : Option (List ℝ)} (h : At K s y d w) :
    At K { s with clean := y ++ d, storedClean := true } y d w :=
  ⟨h.direct, h.dl, h.comp, h.len, fun _ => by simp [h.len, h.dl], fun _ => rfl, h.stored, h.noisy⟩

theorem run_between {s s' : Sensor M R} {r r' : R} {ops : List (Op M R)} {o : List (List ℝ)} {y d : List ℝ} {w : Option (List ℝ)}
    (hs : At K s y d w) (hB : ∀ op ∈ ops, Between op) (h : run K s r ops = .ok (o, s', r')) :
    ∃ v, o = (noisyCalls s.noise ops).map (fun n => if n.isSome then v else y ++ d) ∧
      (∀ v0, w = some v0 → v = v0 ∧ r' = r) ∧
      (w = none → ((noisyCalls s.noise ops).reduceOption = [] → r' = r) ∧
        ∀ n l, (noisyCalls s.noise ops).reduceOption = n :: l → n r (y ++ d) = .ok (v, r')) := by
  induction ops generalizing s r o w with
  | nil =>
    cases h
    refine ⟨w.getD [], rfl, ?_, ?_⟩
    · rintro v0 rfl; exact ⟨rfl, rfl⟩
    · rintro rfl; exact ⟨fun _ => rfl, fun n l h => absurd h (by simp [noisyCalls, List.reduceOption])⟩
  | cons op ops ih =>
    simp only [run, Res.bind_eq_ok] at h
    obtain ⟨⟨o1, s1, r1⟩, h1, ⟨l, s2, r2⟩, h2, h⟩ := h
    cases h
    have hB' : ∀ op ∈ ops, Between op := fun op h => hB op (by simp [h])
    have hop := hB op (by simp)
    cases op with
    | setState v k => exact absurd hop id
    | concatenateWithInput n => exact absurd hop id
    | setMatrixMode m => exact absurd hop id
    | setNoise n =>
      cases h1
      have hs1 : At K (setNoise s n) y d w := ⟨hs.direct, hs.dl, hs.comp, hs.len, hs.inv, hs.clean, hs.stored, hs.noisy⟩
      exact ih hs1 hB' h2
    | getMeasurements b =>
      simp only [exec, Res.bind_eq_ok] at h1
      obtain ⟨⟨v1, s1', r1'⟩, h1, he⟩ := h1
      cases he
      rcases get_cases K h1 with ⟨hb, he, rfl, rfl⟩ | ⟨rfl, hn, hst, rfl, rfl, rfl⟩ | ⟨rfl, hst, n, s3, hn, he, hnv, rfl⟩
      · rw [hs.ensure] at he
        cases he
        obtain ⟨v, hv, hw⟩ := ih hs.ensured hB' h2
        have hb' : (if b then s.noise else none) = none := by
          cases b <;> cases hno : s.noise <;> simp_all
        refine ⟨v, ?_, ?_⟩
        · simp only [noisyCalls, List.map_cons, hb', Option.toList, List.cons_append, List.nil_append, hv]
          rfl
        · simpa only [noisyCalls, hb', List.reduceOption_cons_of_none] using hw
      · obtain ⟨v0, rfl⟩ : ∃ v0, w = some v0 := Option.isSome_iff_exists.1 (by rw [← hs.stored, hst])
        obtain ⟨v, hv, hw, _⟩ := ih hs hB' h2
        obtain ⟨rfl, rfl⟩ := hw v0 rfl
        refine ⟨v, ?_, ?_, by simp⟩
        · simp [noisyCalls, hn, hv, hs.noisy v rfl]
        · rintro v0 e; cases e; exact ⟨rfl, rfl⟩
      · have hw : w = none := by
          cases w with
          | none => rfl
          | some v => rw [hs.stored] at hst; cases hst
        subst hw
        have he' := ensureCleanChecked_eq K he
        rw [hs.ensure] at he'
        cases he'
        have hs4 : At K { s with clean := y ++ d, storedClean := true, noisy := v1, storedNoisy := true } y d (some v1) :=
          ⟨hs.direct, hs.dl, hs.comp, hs.len, hs.ensured.inv, fun _ => rfl, rfl, fun v e => by cases e; rfl⟩
        obtain ⟨v, hv, hw, _⟩ := ih hs4 hB' h2
        obtain ⟨rfl, rfl⟩ := hw v1 rfl
        refine ⟨v, ?_, by simp, ?_⟩
        · simp [noisyCalls, hn, hv]
        · intro _
          refine ⟨fun hm => absurd hm (by simp [noisyCalls, hn]), fun m l hm => ?_⟩
          obtain rfl : n = m := by
            simp only [noisyCalls, hn, if_true, List.reduceOption_cons_of_some, List.cons.injEq] at hm
            exact hm.1
          exact hnv

theorem at_afterSet (hK : Sized K) {s : Sensor M R} {v : List ℝ} {k : Int} {y : List ℝ} (hI : Inv K s) (hc : s.concat ≤ v.length)
    (hy : K.compute s.mode (v.take (K.stateSize s.mode)) = .ok y) :
    At K (afterSet K s v k) y (v.drop (v.length - s.concat)) none :=
  ⟨rfl, by simp [afterSet]; omega, hy, hK _ _ _ hy, hI, fun h => absurd h (by simp [afterSet]), rfl, by simp⟩

/-- **C65** Whatever calls came before, after `setState` all the measurements returned without noise are the measurement computed from the state
followed by the tail of the state vector, all those returned with noise are one and the same vector, and this vector was drawn only once (the random generator moves
once, if at all), from the noise that was set when the first of them was asked for. -/
theorem C65_same (hK : Sized K) (mode : M) (past : List (Op M R)) (r0 r r' : R) (o0 o : List (List ℝ)) (s s1 s' : Sensor M R)
    (hpast : run K (ctor mode) r0 past = .ok (o0, s, r))
    (v : List ℝ) (k : Int) (hset : setState K s v k = .ok s1)
    (y : List ℝ) (hy : K.compute s.mode (v.take (K.stateSize s.mode)) = .ok y)
    (ops : List (Op M R)) (hB : ∀ op ∈ ops, Between op) (h : run K s1 r ops = .ok (o, s', r')) :
    ∃ w, o = (noisyCalls s.noise ops).map (fun n => if n.isSome then w else y ++ v.drop (v.length - s.concat)) ∧
      ((noisyCalls s.noise ops).reduceOption = [] → r' = r) ∧
      ∀ n l, (noisyCalls s.noise ops).reduceOption = n :: l → n r (y ++ v.drop (v.length - s.concat)) = .ok (w, r') := by
  have hI : Inv K s := run_inv K hpast (fun h => absurd h (by simp [ctor]))
  obtain ⟨h1, _, rfl⟩ := setState_ok K hset
  obtain ⟨w, hw, _, hr⟩ := run_between K (at_afterSet K hK hI h1 hy) hB h
  exact ⟨w, hw, (hr rfl).1, (hr rfl).2⟩

/-- **C65** Without appended inputs (or without noise) none of these calls fails, if the noise accepts the measurement. -/
theorem C65_succeeds_partial (hK : Sized K) (mode : M) (past : List (Op M R)) (r0 r : R) (o0 : List (List ℝ)) (s : Sensor M R)
    (hpast : run K (ctor mode) r0 past = .ok (o0, s, r))
    (v : List ℝ) (k : Int) (hv : v.length = K.stateSize s.mode + s.concat)
    (y : List ℝ) (hy : K.compute s.mode (v.take (K.stateSize s.mode)) = .ok y)
    (hn : ∀ n, s.noise = some n → s.concat = 0 ∧ (n r y).isOk) (b : Bool) :
    ∃ s1 w s' r', setState K s v k = .ok s1 ∧ getMeasurements K s1 r b = .ok (w, s', r') := by
  have hI : Inv K s := run_inv K hpast (fun h => absurd h (by simp [ctor]))
  have hset : setState K s v k = .ok (afterSet K s v k) := by
    rw [setState, tail, if_pos (by omega), Res.ok_bind, head, if_pos (by omega), Res.ok_bind]; rfl
  have hAt := at_afterSet K hK (k := k) hI (by omega) hy
  refine ⟨afterSet K s v k, ?_⟩
  rw [hset]
  have hclean : (match (false : Bool), (none : Option (Noise R)) with | _, _ => (ensureClean K (afterSet K s v k) >>= fun s => Res.ok (s.clean, s, r))) =
      .ok (y ++ v.drop (v.length - s.concat), { afterSet K s v k with clean := y ++ v.drop (v.length - s.concat), storedClean := true }, r) := by
    simp only [hAt.ensure, Res.ok_bind]
  cases b with
  | false => exact ⟨_, _, _, rfl, hclean⟩
  | true =>
    cases hno : s.noise with
    | none =>
      refine ⟨_, _, _, rfl, Eq.trans ?_ hclean⟩
      have : (afterSet K s v k).noise = none := hno
      simp only [getMeasurements, this]
    | some n =>
      obtain ⟨hc, hok⟩ := hn n hno
      have hy0 : y ++ v.drop (v.length - s.concat) = y := by rw [hc, Nat.sub_zero, List.drop_length, List.append_nil]
      obtain ⟨⟨w, r'⟩, hw⟩ := (Res.isOk_iff _).1 hok
      rw [← hy0] at hw
      refine ⟨w, { afterSet K s v k with
        clean := y ++ v.drop (v.length - s.concat), storedClean := true, noisy := w, storedNoisy := true, noise := some n }, r', rfl, ?_⟩
      have : (afterSet K s v k).noise = some n := hno
      simp only [getMeasurements, this, computeNoisy, ensureCleanChecked]
      have he2 := hAt.ensure
      rw [ensureClean, if_neg (by simp [afterSet])] at he2
      rw [if_neg (by simp [afterSet]), if_neg (by simp [afterSet]), if_pos (by simp [afterSet, getStateSize, hc]; omega), he2]
      simp only [Res.ok_bind, hw, this]

/-- **C65** The sizes reported by the sensor are those of the vectors it accepts and returns: a state of the reported size is accepted,
and the measurement without noise then has the reported size. -/
theorem C65_sizes (hK : Sized K) (mode : M) (past : List (Op M R)) (r0 r : R) (o0 : List (List ℝ)) (s : Sensor M R)
    (hpast : run K (ctor mode) r0 past = .ok (o0, s, r))
    (v : List ℝ) (k : Int) (hv : v.length = getStateSize K s)
    (y : List ℝ) (hy : K.compute s.mode (v.take (K.stateSize s.mode)) = .ok y) :
    ∃ s1 w s2, setState K s v k = .ok s1 ∧ getMeasurements K s1 r false = .ok (w, s2, r) ∧ w.length = getMeasurementSize K s ∧
      getMeasurementSize K s2 = w.length ∧ getStateSize K s2 = v.length := by
  have hI : Inv K s := run_inv K hpast (fun h => absurd h (by simp [ctor]))
  rw [getStateSize] at hv
  have hset : setState K s v k = .ok (afterSet K s v k) := by
    rw [setState, tail, if_pos (by omega), Res.ok_bind, head, if_pos (by omega), Res.ok_bind]; rfl
  have hAt := at_afterSet K hK (k := k) hI (by omega) hy
  have hl : (y ++ v.drop (v.length - s.concat)).length = K.measSize + s.concat := by
    have := hAt.len
    simp only [List.length_append, List.length_drop]; omega
  refine ⟨_, y ++ v.drop (v.length - s.concat), { afterSet K s v k with clean := y ++ v.drop (v.length - s.concat), storedClean := true }, hset, ?_, hl, hl.symm, hv.symm⟩
  simp only [getMeasurements, hAt.ensure, Res.ok_bind]

/-- **C65** The code rejects the first noisy measurement of a state with appended inputs: the state is compared with the size that includes the
appended inputs, which were cut off (algebraic-sensor.cpp 70). -/
theorem C65_succeeds_false (s : Sensor M R) (v : List ℝ) (k : Int) (n : Noise R) (r : R) (hn : s.noise = some n) (hc : 0 < s.concat)
    (hv : v.length = K.stateSize s.mode + s.concat) :
    (setState K s v k >>= fun s => getMeasurements K s r true) = .assertFail := by
  rw [setState, tail, if_pos (by omega), Res.ok_bind, head, if_pos (by omega), Res.ok_bind, Res.ok_bind]
  simp only [getMeasurements, hn, computeNoisy, ensureCleanChecked]
  rw [if_neg (by simp), if_neg (by simp), if_neg (by simp [getStateSize]; omega)]
  rfl

/-! ## The inertial sensors -/

theorem accGyro_sized : Sized accGyro := by
  intro m v y h
  simp only [accGyro, Res.bind_eq_ok] at h
  obtain ⟨⟨R, a, w⟩, _, h⟩ := h
  cases h; rfl

theorem accGyroMag_sized : Sized accGyroMag := by
  intro m v y h
  simp only [accGyroMag, Res.bind_eq_ok] at h
  obtain ⟨⟨R, a, w⟩, _, h⟩ := h
  cases h; rfl

/-- A state vector in quaternion mode. -/
def stateQ (q : Quat) (a w : V3) : List ℝ := [q.x, q.y, q.z, q.w, a 0, a 1, a 2, w 0, w 1, w 2]

/-- A state vector in matrix mode (matrices are stored by columns). -/
def stateM (R : M3) (a w : V3) : List ℝ :=
  [R 0 0, R 1 0, R 2 0, R 0 1, R 1 1, R 2 1, R 0 2, R 1 2, R 2 2, a 0, a 1, a 2, w 0, w 1, w 2]

theorem vec_eta (a : V3) : ![a 0, a 1, a 2] = a := by apply ext3 <;> rfl

theorem read_stateQ (q : Quat) (a w : V3) : readState false (stateQ q a w) = .ok (q.toMat, a, w) := by
  simp [readState, stateQ, at3, vec_eta]

theorem read_stateM (R : M3) (a w : V3) : readState true (stateM R a w) = .ok (R, a, w) := by
  have e : of ![R 0, R 1, R 2] = R := by
    apply mext3; intro i j; fin_cases i <;> rfl
  simp [readState, stateM, at3, vec_eta, e]

/-- **C66** The inertial sensor, quaternion mode: the measurements are the vectors which the rotation of the sensor takes to the acceleration plus
gravity and to the angular velocity; their norms are the norms of those. -/
theorem C66_imu (q : Quat) (hq : q.normSq = 1) (a w : V3) :
    ∃ acc gyro : V3, accGyro.compute false (stateQ q a w) = .ok [acc 0, acc 1, acc 2, gyro 0, gyro 1, gyro 2] ∧
      q.toMat *ᵥ acc = a + ![0, 0, 9.8] ∧ q.toMat *ᵥ gyro = w ∧ nrm acc = nrm (a + ![0, 0, 9.8]) ∧ nrm gyro = nrm w := by
  have hR := Quat.toMat_isRot hq
  refine ⟨q.toMatᵀ *ᵥ (a + ![0, 0, 9.8]), q.toMatᵀ *ᵥ w, ?_, hR.cancel' _, hR.cancel' _, hR.transpose.nrm _, hR.transpose.nrm _⟩
  simp [accGyro, read_stateQ, toL, accelerationMeasure, rotationVelocityMeasure, gravity]

/-- **C66** With the magnetometer. The field is the one of the library, (0, 28, -33.7). -/
theorem C66_magnetometer_partial (q : Quat) (hq : q.normSq = 1) (a w magne : V3) :
    ∃ acc gyro mag : V3, accGyroMag.compute (false, magne) (stateQ q a w) =
        .ok [acc 0, acc 1, acc 2, gyro 0, gyro 1, gyro 2, mag 0, mag 1, mag 2] ∧
      q.toMat *ᵥ acc = a + ![0, 0, 9.8] ∧ q.toMat *ᵥ gyro = w ∧ q.toMat *ᵥ mag = ![0, 28, -33.7] ∧
      nrm acc = nrm (a + ![0, 0, 9.8]) ∧ nrm gyro = nrm w ∧ nrm mag = nrm ![0, 28, -33.7] := by
  have hR := Quat.toMat_isRot hq
  refine ⟨q.toMatᵀ *ᵥ (a + ![0, 0, 9.8]), q.toMatᵀ *ᵥ w, q.toMatᵀ *ᵥ ![0, 28, -33.7], ?_, hR.cancel' _, hR.cancel' _, hR.cancel' _,
    hR.transpose.nrm _, hR.transpose.nrm _, hR.transpose.nrm _⟩
  simp [accGyroMag, read_stateQ, toL, accelerationMeasure, rotationVelocityMeasure, gravity, magneticFieldMeasure, earthLocalMagneticField]

/-- **C66** The measured field is not the one the sensor class holds: at the identity orientation, with the field (0, 32, -37) that
the constructor sets, the measurement is another. -/
theorem C66_magnetometer_false :
    ∃ acc gyro mag : V3, accGyroMag.compute magMode (stateQ 1 0 0) = .ok [acc 0, acc 1, acc 2, gyro 0, gyro 1, gyro 2, mag 0, mag 1, mag 2] ∧
      (1 : Quat).toMat *ᵥ mag ≠ magMode.2 := by
  obtain ⟨acc, gyro, mag, h, _, _, hm, _⟩ := C66_magnetometer_partial 1 Quat.normSq_one 0 0 ![0, 32, -37]
  refine ⟨acc, gyro, mag, h, ?_⟩
  rw [hm]
  intro e
  have := congrFun e 1
  norm_num [magMode] at this

/-- **C66** The two modes agree: the matrix of the quaternion gives the same measurements as the quaternion. -/
theorem C66_modes (q : Quat) (a w magne : V3) :
    accGyro.compute true (stateM q.toMat a w) = accGyro.compute false (stateQ q a w) ∧
    accGyroMag.compute (true, magne) (stateM q.toMat a w) = accGyroMag.compute (false, magne) (stateQ q a w) := by
  simp [accGyro, accGyroMag, read_stateQ, read_stateM]

/-- **C66** Matrix mode, for any rotation matrix. -/
theorem C66_matrix (R : M3) (hR : IsRot R) (a w : V3) :
    ∃ acc gyro : V3, accGyro.compute true (stateM R a w) = .ok [acc 0, acc 1, acc 2, gyro 0, gyro 1, gyro 2] ∧
      R *ᵥ acc = a + ![0, 0, 9.8] ∧ R *ᵥ gyro = w ∧ nrm acc = nrm (a + ![0, 0, 9.8]) ∧ nrm gyro = nrm w := by
  refine ⟨Rᵀ *ᵥ (a + ![0, 0, 9.8]), Rᵀ *ᵥ w, ?_, hR.cancel' _, hR.cancel' _, hR.transpose.nrm _, hR.transpose.nrm _⟩
  simp [accGyro, read_stateM, toL, accelerationMeasure, rotationVelocityMeasure, gravity]

/-- Non-vacuity of C65: a sensor with two coefficients and an additive noise, asked four times; the noise is drawn once. -/
example : ∃ s1 o s', setState (⟨fun _ => 2, 2, fun _ v => .ok v⟩ : Kind Unit)
      (setNoise (ctor ()) (some fun (r : ℕ) x => .ok (x.map (· + (r : ℝ)), r + 1))) [1, 2] 3 = .ok s1 ∧
    run (⟨fun _ => 2, 2, fun _ v => .ok v⟩ : Kind Unit) s1 5
      [.getMeasurements true, .getMeasurements false, .getMeasurements true, .setNoise none, .getMeasurements true] = .ok (o, s', 6) ∧
    o = [[1 + ((5 : ℕ) : ℝ), 2 + ((5 : ℕ) : ℝ)], [1, 2], [1 + ((5 : ℕ) : ℝ), 2 + ((5 : ℕ) : ℝ)], [1, 2]] :=
  ⟨_, _, _, rfl, rfl, rfl⟩

end StateObs.Sensor
