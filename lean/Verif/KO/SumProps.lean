import Verif.KO.SumLemmas
import Verif.KO.ClockProps
import Verif.Kin.OriLemmas
import Verif.Imu.CacheProps
/-!
# C60: sum and difference of the states of the kinetics observer
-/

namespace StateObs.KO
open StateObs Matrix Rot Kine KF
open Observer

variable {nc ni : ℕ} {o : Observer} {x y t : DVec}

theorem at_eq (hi : Inv nc ni o) {c : Comp} {i j : ℕ} : At o ni c i j ↔ InUse o ni c ∧ i = off ni c ∧ j = offT ni c := by
  unfold At
  rw [start_eq hi, startTangent_eq hi]
  exact ⟨fun h => ⟨h.1, h.2.1.2, h.2.2.2⟩, fun h => ⟨h.1, ⟨h.1.exists, h.2.1⟩, h.1.exists, h.2.2⟩⟩

theorem sizes (hi : Inv nc ni o) : o.stateSize = 19 + ni * 3 + nc * 13 ∧ o.tangentSize = 18 + ni * 3 + 12 * nc :=
  ⟨by rw [Observer.stateSize, hi.1.1, hi.1.2], by rw [Observer.tangentSize, hi.1.1, hi.1.2]⟩

/-! ## Rotations -/

theorem vecRot_rounded (v : V3) : vecRot v = NormedSpace.exp (hat (rounded v)) := by
  unfold vecRot rounded
  split_ifs
  · rw [hat_zero, NormedSpace.exp_zero]
  · rfl

theorem exp_eq_one {v : V3} (h : nrm v ≤ Real.pi) (e : NormedSpace.exp (hat v) = 1) : v = 0 := by
  by_contra hv
  have hp := nrm_pos hv
  rw [← Kine.toMat_normalized hp] at e
  have hu := Kine.unit_normalized hp
  have h0 := congrFun (congrFun e 0) 0
  have h1 := congrFun (congrFun e 1) 1
  have h2 := congrFun (congrFun e 2) 2
  simp only [AngleAxis.toMat, Matrix.of_apply, Matrix.cons_val_zero, Matrix.cons_val_one, Matrix.cons_val, Matrix.one_apply_eq] at h0 h1 h2
  rw [dotProduct, Fin.sum_univ_three] at hu
  have hc : Real.cos (nrm v) = 1 := by nlinarith
  have := Real.injOn_cos ⟨hp.le, h⟩ ⟨le_refl 0, Real.pi_pos.le⟩ (hc.trans Real.cos_zero.symm)
  exact hp.ne' this

theorem oriOf_rep {q : Quat} (h : q.normSq = 1) : (oriOf q).Rep q.toMat := Ori.rep_q h rfl

/-- Turning by `v` then taking the difference gives `v` back. -/
theorem differentiate_turned {q : Quat} (h : q.normSq = 1) {v : V3} (hv : nrm v < Real.pi) :
    (oriOf q).differentiate (oriOf (rotationVectorToQuaternion v * q)) = .ok (rounded v) := by
  have hr : (oriOf (rotationVectorToQuaternion v * q)).Rep (vecRot v * q.toMat) := by
    refine Ori.rep_q (by rw [Quat.normSq_mul, rvq_unit, h, one_mul]) ?_
    rw [Quat.toMat_mul (rvq_unit v) h, rvq_toMat, vecRot_eq]
  by_cases hs : nrm v ≤ 1e-16
  · obtain ⟨r, e, h1, h2⟩ := (oriOf_rep h).differentiate hr
    have : vecRot v = 1 := if_pos hs
    rw [this, one_mul] at h1
    have hR := (Quat.toMat_isRot h)
    have : NormedSpace.exp (hat r) = 1 := by
      have := congrArg (· * q.toMatᵀ) h1
      simpa only [mul_assoc, mul_eq_one_comm.1 hR.1, mul_one] using this
    rw [e, exp_eq_one h2 this, rounded, if_pos hs]
  · push Not at hs
    obtain ⟨i, e1, hi⟩ := (oriOf_rep h).inverse
    obtain ⟨p, A', i', e2, hp, _, _, _⟩ := Ori.Rep.mul (Ori.new false) hr hi
    rw [mul_assoc, mul_eq_one_comm.1 (Quat.toMat_isRot h).1, mul_one] at hp
    have e3 := hp.toRotationVector_vecRot hs hv
    simp [Ori.differentiate, (oriOf_rep h).check, e1, Ori.product, e2, e3, rounded, not_le.2 hs]

/-! ## The operations -/

theorem at3_add {s : DVec} {i j : ℕ} (h : ∀ k, k < 3 → at1 s (i + k) = at1 x (i + k) + at1 t (j + k)) : at3 s i = at3 x i + at3 t j := by
  rw [at3_eq, at3_eq, at3_eq, h 1 (by omega), h 2 (by omega)]
  have := h 0 (by omega)
  simp only [add_zero] at this
  rw [this]
  apply ext3 <;> simp

theorem isSum_of (hi : Inv nc ni o) {s : DVec} (hx : x.size = 19 + ni * 3 + nc * 13) (hz : s.size = 19 + ni * 3 + nc * 13)
    (hd : Done at1 (regS ni) (SumVal ni x t) (InUse o ni) x s) : IsSum o ni x t s := by
  refine ⟨hz.trans hx.symm, fun c i j ha hc => ?_, fun c i j ha hc hu => ?_, fun k hk => ?_⟩
  · obtain ⟨hu, rfl, rfl⟩ := (at_eq hi).1 ha
    exact at3_add ((hd.1 c hu).1 hc)
  · obtain ⟨hin, rfl, rfl⟩ := (at_eq hi).1 ha
    rw [(hd.1 c hin).2 hc]
    refine ⟨by rw [Quat.normSq_mul, rvq_unit, hu, one_mul], ?_⟩
    rw [Quat.toMat_mul (rvq_unit _) hu, rvq_toMat, vecRot_eq, vecRot_rounded]
  · exact hd.2 k fun c hc hr => hk c _ _ ((at_eq hi).2 ⟨hc, rfl, rfl⟩) hr

/-- **C60** The sum of a state and of an increment, for every reachable observer: components in use moved, the others kept. -/
theorem C60_observer_sum {l : List Op} (h : Reachable nc ni l o) (hx : x.size = o.stateSize) (ht : t.size = o.tangentSize) :
    ∃ s, o.stateSum x t = .ok s ∧ IsSum o ni x t s := by
  have hi := inv_reachable h
  rw [(sizes hi).1] at hx
  rw [(sizes hi).2] at ht
  obtain ⟨s, e, z, d⟩ := stateSum_value hi hx ht
  exact ⟨s, e, isSum_of hi hx z d⟩

/-- The output, once it is known to be initialised. -/
theorem done_value {d : Buf} {N : ℕ} (hz : d.size = N) (hs : ∀ k, k < N → (bat d k).isSome) :
    ∃ v : DVec, d.done = .ok v ∧ v.size = N ∧ ∀ k r, bat d k = some r → at1 v k = r := by
  have : ∀ j, (d.val j).isSome := fun j => by
    have := hs j.1 (by rw [← hz]; exact j.2)
    rw [bat, dif_pos j.2] at this
    exact this
  refine ⟨⟨d.size, fun j => (d.val j).getD 0⟩, by rw [Buf.done, if_pos this], hz, fun k r hr => ?_⟩
  unfold bat at hr
  split_ifs at hr with hk
  rw [at1, dif_pos hk]
  simp [hr]

theorem inUse_val (hi : Inv nc ni o) {d0 d : Buf} (hd : Done bat (regT ni) (DiffVal ni x y) (InUse o ni) d0 d) (k : ℕ) (hk : k < 18 + ni * 3 + 12 * nc)
    (h0 : (∀ c, InUse o ni c → ¬regT ni c k) → (bat d0 k).isSome) : (bat d k).isSome := by
  by_cases h : ∃ c, InUse o ni c ∧ regT ni c k
  · obtain ⟨c, hc, h1, h2⟩ := h
    obtain ⟨m, rfl⟩ : ∃ m, k = offT ni c + m := ⟨k - offT ni c, by omega⟩
    cases ht : c.isTurn
    · rw [(hd.1 c hc).1 ht m (by omega)]; rfl
    · obtain ⟨r, -, hr⟩ := (hd.1 c hc).2 ht
      rw [hr ⟨m, by omega⟩]; rfl
  · push Not at h
    rw [hd.2 k h]
    exact h0 h

theorem resize_some {old : DVec} {N k : ℕ} (h : old.size = N) (hk : k < N) : bat (Buf.resize old N) k = some (at1 old k) := by
  subst h
  rw [Buf.resize, dif_pos rfl, bat, dif_pos hk, at1, dif_pos hk]
  rfl

theorem at3_of {d : Buf} {v : DVec} (hv : ∀ k r, bat d k = some r → at1 v k = r) {j : ℕ} {r : V3} (h : ∀ k : Fin 3, bat d (j + k) = some (r k)) : at3 v j = r := by
  rw [at3_eq]
  have h0 := hv _ _ (h 0)
  have h1 := hv _ _ (h 1)
  have h2 := hv _ _ (h 2)
  simp only [Fin.val_zero, Fin.val_one, Fin.val_two, add_zero] at h0 h1 h2
  rw [h0, h1, h2]
  apply ext3 <;> rfl

theorem isDifference_of (hi : Inv nc ni o) {old v : DVec} {d : Buf}
    (hz : v.size = 18 + ni * 3 + 12 * nc) (hv : ∀ k r, bat d k = some r → at1 v k = r)
    (hd : Done bat (regT ni) (DiffVal ni x y) (InUse o ni) (Buf.resize old (18 + ni * 3 + 12 * nc)) d)
    (hr : ∀ k, (∀ c, InUse o ni c → ¬regT ni c k) → at1 v k = at1 old k) : IsDifference o ni old x y v := by
  refine ⟨hz.trans (sizes hi).2.symm, fun c i j ha hc => ?_, fun c i j ha hc hu hw => ?_, fun k hk => ?_⟩
  · obtain ⟨hu, rfl, rfl⟩ := (at_eq hi).1 ha
    refine at3_of hv fun k => ?_
    rw [(hd.1 c hu).1 hc k.1 k.2]
    rfl
  · obtain ⟨hin, rfl, rfl⟩ := (at_eq hi).1 ha
    obtain ⟨r, e, hb⟩ := (hd.1 c hin).2 hc
    rw [at3_of hv hb]
    obtain ⟨r', e', h1, h2⟩ := (oriOf_rep hw).differentiate (oriOf_rep hu)
    obtain rfl := Res.ok.inj (e.symm.trans e')
    exact ⟨h1, h2⟩
  · exact hr k fun c hc h => hk c _ _ ((at_eq hi).2 ⟨hc, rfl, rfl⟩) h

theorem difference_full (hi : Inv nc ni o) {old : DVec} (ho : old.size = 18 + ni * 3 + 12 * nc) (hx : x.size = 19 + ni * 3 + nc * 13)
    (hy : y.size = 19 + ni * 3 + nc * 13) : ∃ (v : DVec) (d : Buf), o.stateDifference old x y = .ok v ∧ v.size = 18 + ni * 3 + 12 * nc ∧
      (∀ k r, bat d k = some r → at1 v k = r) ∧ Done bat (regT ni) (DiffVal ni x y) (InUse o ni) (Buf.resize old (18 + ni * 3 + 12 * nc)) d ∧
      ∀ k, (∀ c, InUse o ni c → ¬regT ni c k) → at1 v k = at1 old k := by
  obtain ⟨d, e, z, hd⟩ := stateDifference_value hi old hx hy
  obtain ⟨v, ev, hz, hv⟩ := done_value z fun k hk => inUse_val hi hd k hk fun _ => by rw [resize_some ho hk]; rfl
  refine ⟨v, d, by rw [e, ev], hz, hv, hd, fun k hk => ?_⟩
  by_cases hlt : k < 18 + ni * 3 + 12 * nc
  · exact hv _ _ (by rw [hd.2 k hk, resize_some ho hlt])
  · rw [at1, at1, dif_neg (by omega), dif_neg (by omega)]

/-- **C60** The difference of two states, written in a vector of the right size: components in use subtracted, the other entries of the vector kept. -/
theorem C60_observer_difference {l : List Op} (h : Reachable nc ni l o) {old : DVec} (ho : old.size = o.tangentSize) (hx : x.size = o.stateSize)
    (hy : y.size = o.stateSize) : ∃ d, o.stateDifference old x y = .ok d ∧ IsDifference o ni old x y d := by
  have hi := inv_reachable h
  rw [(sizes hi).1] at hx hy
  rw [(sizes hi).2] at ho
  obtain ⟨v, d, e, hz, hv, hd, hr⟩ := difference_full hi ho hx hy
  exact ⟨v, e, isDifference_of hi hz hv hd hr⟩

/-- **C60** Adding an increment then taking the difference gives the increment back on all the components in use, for rotations below π;
rotations below 1e-16 are lost. -/
theorem C60_observer {l : List Op} (h : Reachable nc ni l o) {old : DVec} (ho : old.size = o.tangentSize) (hx : x.size = o.stateSize)
    (ht : t.size = o.tangentSize) (hu : UnitState o ni x) (hp : ∀ c i j, At o ni c i j → c.isTurn = true → nrm (at3 t j) < Real.pi) :
    ∃ s d, o.stateSum x t = .ok s ∧ o.stateDifference old s x = .ok d ∧ d.size = o.tangentSize ∧
      ∀ c i j, At o ni c i j → at3 d j = if c.isTurn = true then rounded (at3 t j) else at3 t j := by
  have hi := inv_reachable h
  rw [(sizes hi).1] at hx
  rw [(sizes hi).2] at ho ht
  obtain ⟨s, e, z, hs⟩ := stateSum_value hi hx ht
  obtain ⟨v, d, e', hz, hv, hd, -⟩ := difference_full hi ho z hx
  refine ⟨s, v, e, e', hz.trans (sizes hi).2.symm, fun c i j ha => ?_⟩
  obtain ⟨hin, ei, ej⟩ := (at_eq hi).1 ha
  cases hc : c.isTurn
  · subst ei ej
    rw [if_neg (by simp)]
    refine at3_of hv fun k => ?_
    rw [(hd.1 c hin).1 hc k.1 k.2, (hs.1 c hin).1 hc k.1 k.2, add_sub_cancel_left]
    rfl
  · rw [if_pos rfl]
    obtain ⟨r, er, hb⟩ := (hd.1 c hin).2 hc
    have hq := hu c i j ha hc
    have hn := hp c i j ha hc
    subst ei ej
    rw [(hs.1 c hin).2 hc, differentiate_turned hq hn] at er
    rw [at3_of hv hb, ← Res.ok.inj er]

/-- **C60** Taking the difference then adding it gives the state back: vectors equal, quaternions of the same rotation (unless the difference of the orientations is
below 1e-16). -/
theorem C60_observer_back {l : List Op} (h : Reachable nc ni l o) {old : DVec} (ho : old.size = o.tangentSize) (hx : x.size = o.stateSize)
    (hy : y.size = o.stateSize) (hux : UnitState o ni x) (huy : UnitState o ni y) :
    ∃ d s, o.stateDifference old x y = .ok d ∧ o.stateSum y d = .ok s ∧
      ∀ c i j, At o ni c i j → if c.isTurn = true then (rounded (at3 d j) = at3 d j → (quatAt s i).toMat = (quatAt x i).toMat) else at3 s i = at3 x i := by
  obtain ⟨d, e, hd⟩ := C60_observer_difference h ho hx hy
  obtain ⟨s, e', hs⟩ := C60_observer_sum h hy hd.size
  refine ⟨d, s, e, e', fun c i j ha => ?_⟩
  cases hc : c.isTurn
  · rw [if_neg (by simp), hs.vec c i j ha hc, hd.vec c i j ha hc, add_sub_cancel]
  · rw [if_pos rfl]
    intro hr
    rw [(hs.turn c i j ha hc (huy c i j ha hc)).2, hr, (hd.turn c i j ha hc (hux c i j ha hc) (huy c i j ha hc)).1]

theorem dvec_ext {x y : DVec} (h : x.size = y.size) (e : ∀ k, at1 x k = at1 y k) : x = y := by
  obtain ⟨n, v⟩ := x
  obtain ⟨m, w⟩ := y
  obtain rfl : n = m := h
  congr 1
  funext k
  have := e k.1
  simpa [at1, k.2] using this

/-- **C60** Adding zero changes nothing. -/
theorem C60_observer_zero {l : List Op} (h : Reachable nc ni l o) (hx : x.size = o.stateSize) : o.stateSum x ⟨o.tangentSize, 0⟩ = .ok x := by
  have hi := inv_reachable h
  rw [(sizes hi).1] at hx
  obtain ⟨s, e, z, hs⟩ := stateSum_value hi (t := ⟨o.tangentSize, 0⟩) hx (sizes hi).2
  rw [e]
  congr 1
  have h0 : ∀ k, at1 ⟨o.tangentSize, 0⟩ k = 0 := fun k => by unfold at1; split_ifs <;> rfl
  have h3 : ∀ k, at3 ⟨o.tangentSize, 0⟩ k = 0 := fun k => by rw [at3_eq, h0, h0, h0]; apply ext3 <;> rfl
  refine dvec_ext (z.trans hx.symm) fun k => ?_
  by_cases hk : ∃ c, InUse o ni c ∧ regS ni c k
  · obtain ⟨c, hc, h1, h2⟩ := hk
    obtain ⟨m, rfl⟩ : ∃ m, k = off ni c + m := ⟨k - off ni c, by omega⟩
    cases ht : c.isTurn
    · have := size_plain ht
      rw [(hs.1 c hc).1 ht m (by omega), h0, add_zero]
    · have hsz := size_turn ht
      have := (hs.1 c hc).2 ht
      rw [h3, Imu.rvq_zero, Quat.one_mul, quatAt_eq, quatAt_eq] at this
      injection this with a b c' d
      obtain rfl | rfl | rfl | rfl : m = 0 ∨ m = 1 ∨ m = 2 ∨ m = 3 := by omega
      · exact b
      · exact c'
      · exact d
      · exact a
  · push Not at hk
    exact hs.2 k hk

/-- **C60** The difference that returns a new vector: initialised if and only if all the components are in use. -/
theorem C60_observer_new {l : List Op} (h : Reachable nc ni l o) (hx : x.size = o.stateSize) (hy : y.size = o.stateSize) :
    (AllInUse o nc → ∃ d, o.stateDifferenceNew x y = .ok d ∧ IsDifference o ni d x y d) ∧ (¬AllInUse o nc → o.stateDifferenceNew x y = .ub) := by
  have hi := inv_reachable h
  rw [(sizes hi).1] at hx hy
  obtain ⟨d, e, z, hd⟩ := stateDifference_value hi ⟨0, Fin.elim0⟩ hx hy
  have hnew : Buf.resize ⟨0, Fin.elim0⟩ (18 + ni * 3 + 12 * nc) = Buf.new (18 + ni * 3 + 12 * nc) := by
    rw [Buf.resize, dif_neg (by dsimp only; omega)]
  have hnone : ∀ k, bat (Buf.new (18 + ni * 3 + 12 * nc)) k = none := fun k => by unfold bat Buf.new; split_ifs <;> rfl
  refine ⟨fun ha => ?_, fun ha => ?_⟩
  · have hall : ∀ k, k < 18 + ni * 3 + 12 * nc → ∃ c, InUse o ni c ∧ regT ni c k := fun k hk => by
      obtain ⟨c, hv, hc⟩ := offT_cover (nc := nc) (ni := ni) hk
      refine ⟨c, ?_, hc⟩
      obtain ⟨h1, h2, h3⟩ := ha
      cases c <;> first | exact trivial | exact h2 | exact ⟨h1, hv⟩ | exact h3 _ hv
    obtain ⟨v, ev, hz, hv⟩ := done_value z fun k hk => inUse_val hi hd k hk fun h => by
      obtain ⟨c, h1, h2⟩ := hall k hk
      exact absurd h2 (h c h1)
    refine ⟨v, by rw [stateDifferenceNew, e, ev], ?_⟩
    have := isDifference_of hi (old := ⟨0, Fin.elim0⟩) (v := v) hz hv hd fun k hk => by
      by_cases hlt : k < 18 + ni * 3 + 12 * nc
      · obtain ⟨c, h1, h2⟩ := hall k hlt
        exact absurd h2 (hk c h1)
      · rw [at1, dif_neg (by omega), at1, dif_neg (by simp)]
    exact ⟨this.size, this.vec, this.turn, fun _ _ => rfl⟩
  · rw [stateDifferenceNew, e, Buf.done, if_neg]
    intro hs
    apply ha
    have key : ∀ c, c.Valid nc ni → ¬InUse o ni c → False := fun c hv hc => by
      have hr := offT_range hv
      have : bat d (offT ni c) = none := by
        rw [hd.2 (offT ni c) fun c' hc' h' => ?_, hnew, hnone]
        exact regT_disjoint (hc'.valid hi) hv (fun e => hc (e ▸ hc')) _ h' ⟨le_refl _, by omega⟩
      have h1 := hs ⟨offT ni c, by omega⟩
      rw [bat, dif_pos (by omega)] at this
      rw [this] at h1
      simp at h1
    refine ⟨by_contra fun h => key (.gyroBias 0) hi.2.imuPos fun h' => h h'.1, by_contra fun h => key .unmodeledForce trivial h, fun n hn => by_contra fun h => key (.contactPosition n) hn h⟩

theorem construct_fresh (e : Observer.construct nc ni = .ok o) : Reachable nc ni [] o ∧ o.withUnmodeledWrench = false ∧ o.contacts = (base nc ni).contacts := by
  obtain ⟨ek, k, hc, -, -⟩ := construct_kin (nc := nc) (ni := ni) (construct_pos e)
  obtain rfl := Res.ok.inj (hc.symm.trans e)
  exact ⟨⟨_, e, rfl⟩, rfl, rfl⟩

/-- **C60** fails for the difference that returns a new vector: with the settings of the constructor (no unmodeled wrench) it has entries that were never written. -/
theorem C60_observer_new_false (e : Observer.construct nc ni = .ok o) (hx : x.size = o.stateSize) (hy : y.size = o.stateSize) :
    o.stateDifferenceNew x y = .ub := by
  obtain ⟨h, hw, -⟩ := construct_fresh e
  exact (C60_observer_new h hx hy).2 fun ha => absurd ha.2.1 (by rw [hw]; simp)

/-- The hypotheses of `C60_observer` hold: a new observer, the robot turned by 1 rad. -/
theorem C60_observer_example : ∃ (o : Observer) (t s d : DVec), Observer.construct 0 1 = .ok o ∧ o.stateSum spinState t = .ok s ∧
    o.stateDifference ⟨21, 0⟩ s spinState = .ok d ∧ at3 d 3 = ![1, 0, 0] ∧ at3 d 9 = 0 := by
  obtain ⟨ek, k, hc, -, -⟩ := construct_kin (nc := 0) (ni := 1) one_pos
  obtain ⟨hr, -, hcon⟩ := construct_fresh hc
  generalize hO : ({ base 0 1 with ekf := ek, stateKin := k } : Observer) = o at hc hr hcon
  have hi := inv_reachable hr
  have hz := sizes hi
  let t : DVec := ⟨21, fun i => if i.1 = 3 then 1 else 0⟩
  have ht3 : at3 t 3 = ![1, 0, 0] := by rw [at3_eq]; apply ext3 <;> simp [at1, t]
  have ht9 : at3 t 9 = 0 := by rw [at3_eq]; apply ext3 <;> simp [at1, t]
  have hn : nrm (![1, 0, 0] : V3) = 1 := by rw [nrm_eq_one, dotProduct, Fin.sum_univ_three]; simp
  have turns : ∀ c i j, At o 1 c i j → c.isTurn = true → i = 3 ∧ j = 3 := fun c i j ha hc => by
    obtain ⟨hu, rfl, rfl⟩ := (at_eq hi).1 ha
    cases c <;> simp [Comp.isTurn] at hc
    · exact ⟨rfl, rfl⟩
    · exact absurd (isSet_lt hi hu) (by omega)
  obtain ⟨s, d, e1, e2, -, h3⟩ := C60_observer hr (old := ⟨21, 0⟩) (x := spinState) (t := t) hz.2.symm hz.1.symm hz.2.symm
    (fun c i j ha hc => by
      obtain ⟨rfl, -⟩ := turns c i j ha hc
      simp [quatAt, entry, spinState, Quat.normSq])
    (fun c i j ha hc => by
      obtain ⟨-, rfl⟩ := turns c i j ha hc
      rw [ht3, hn]
      linarith [Real.two_le_pi])
  refine ⟨o, t, s, d, hc, e1, e2, ?_, ?_⟩
  · rw [h3 .orientation 3 3 ((at_eq hi).2 ⟨trivial, rfl, rfl⟩), if_pos (show Comp.orientation.isTurn = true from rfl), ht3, rounded, if_neg]
    rw [hn]; norm_num
  · rw [h3 .angVel 10 9 ((at_eq hi).2 ⟨trivial, rfl, rfl⟩), if_neg (by simp [Comp.isTurn]), ht9]

end StateObs.KO
