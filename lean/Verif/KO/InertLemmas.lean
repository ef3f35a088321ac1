import Verif.KO.InertInv
import Verif.KO.SumProps
import Verif.KO.StepProps
/-!
# The dynamics and the sensors do not depend on the components `inert`
-/

namespace StateObs.KO
open StateObs Matrix Rot Kine KF Observer

variable {nc ni : ℕ} {o o' : Observer} {x x' y t s : DVec}

/-! ## Places -/

/-- The places of the components `inert` in the state vector. -/
def InertPlace (ni k : ℕ) : Prop := (13 ≤ k ∧ k < 13 + 3 * ni) ∨ (19 + 3 * ni ≤ k ∧ (k - (19 + 3 * ni)) % 13 < 7)

theorem place_iff {c : Comp} (hv : c.Valid nc ni) {k : ℕ} (h : regS ni c k) : InertPlace ni k ↔ c.inert = true := by
  obtain ⟨h1, h2⟩ := h
  cases c <;> simp only [Comp.inert, off, Comp.size, Comp.Valid, iff_true, Bool.false_eq_true, iff_false, InertPlace] at * <;> omega

theorem row_iff {c : Comp} (hv : c.Valid nc ni) {k : ℕ} (h : regT ni c k) : InertRow ni k ↔ c.inert = true := by
  obtain ⟨h1, h2⟩ := h
  cases c <;> simp only [Comp.inert, offT, Comp.Valid, iff_true, Bool.false_eq_true, iff_false, InertRow] at * <;> omega

/-- Equal but for the components `inert`. -/
structure Same (ni : ℕ) (x x' : DVec) : Prop where
  size : x.size = x'.size
  at' : ∀ k, ¬InertPlace ni k → at1 x k = at1 x' k

theorem seg_same (h : Same ni x x') {n i : ℕ} (hn : ∀ j, j < n → ¬InertPlace ni (i + j)) : x.seg n i = x'.seg n i := by
  by_cases hs : i + n ≤ x.size
  · obtain ⟨w, e, hw⟩ := seg_at1 hs
    obtain ⟨w', e', hw'⟩ := seg_at1 (h.size ▸ hs)
    rw [e, e']
    congr 1
    funext j
    rw [hw, hw', h.at' _ (hn j j.2)]
  · rw [DVec.seg, DVec.seg, dif_neg hs, dif_neg (h.size ▸ hs)]

theorem setSeg_frame {n i : ℕ} {w : Fin n → ℝ} {v v' : DVec} (e : v.setSeg n i w = .ok v') :
    v'.size = v.size ∧ (∀ j, j < i ∨ i + n ≤ j → at1 v' j = at1 v j) ∧ ∀ j (hj : j < n), at1 v' (i + j) = w ⟨j, hj⟩ := by
  by_cases h : i + n ≤ v.size
  · obtain ⟨v2, e2, h1, h2, h3⟩ := setSeg_live w h
    rw [e] at e2
    cases e2
    exact ⟨h1, h2, h3⟩
  · rw [DVec.setSeg, if_neg h] at e
    cases e

theorem setSeg_same (h : Same ni x x') {n i : ℕ} {w : Fin n → ℝ} {r r' : DVec} (e : x.setSeg n i w = .ok r) (e' : x'.setSeg n i w = .ok r')
    (hn : ∀ j, j < n → ¬InertPlace ni (i + j)) : Same ni r r' ∧ (∀ k, InertPlace ni k → at1 r k = at1 x k) ∧ ∀ k, InertPlace ni k → at1 r' k = at1 x' k := by
  obtain ⟨a1, a2, a3⟩ := setSeg_frame e
  obtain ⟨b1, b2, b3⟩ := setSeg_frame e'
  have key : ∀ k, InertPlace ni k → k < i ∨ i + n ≤ k := fun k hk => by
    by_contra hh
    exact hn (k - i) (by omega) (by rwa [show i + (k - i) = k by omega])
  refine ⟨⟨by rw [a1, b1, h.size], fun k hk => ?_⟩, fun k hk => a2 k (key k hk), fun k hk => b2 k (key k hk)⟩
  by_cases hh : k < i ∨ i + n ≤ k
  · rw [a2 k hh, b2 k hh, h.at' k hk]
  · obtain ⟨j, rfl⟩ : ∃ j, k = i + j := ⟨k - i, by omega⟩
    rw [a3 j (by omega), b3 j (by omega)]

theorem foldlM_congr_mem {α β : Type} {f g : β → α → Res β} : ∀ (l : List α) (b : β), (∀ a ∈ l, ∀ b, f b a = g b a) → l.foldlM f b = l.foldlM g b
  | [], _, _ => rfl
  | a :: l, b, h => by
    rw [List.foldlM_cons, List.foldlM_cons, h a List.mem_cons_self]
    congr 1
    funext b'
    exact foldlM_congr_mem l b' fun a ha => h a (List.mem_cons_of_mem _ ha)

theorem foldlM_two {α β : Type} {f : β → α → Res β} (R : β → β → Prop) : ∀ (l : List α) (b b' c c' : β),
    (∀ a ∈ l, ∀ b b' c c', R b b' → f b a = .ok c → f b' a = .ok c' → R c c') → R b b' → l.foldlM f b = .ok c → l.foldlM f b' = .ok c' → R c c'
  | [], b, b', c, c', _, hr, e, e' => by cases e; cases e'; exact hr
  | a :: l, b, b', c, c', h, hr, e, e' => by
    rw [List.foldlM_cons, Res.bind_eq_ok] at e e'
    obtain ⟨d, h1, e⟩ := e
    obtain ⟨d', h1', e'⟩ := e'
    exact foldlM_two R l d d' c c' (fun a ha => h a (List.mem_cons_of_mem _ ha)) (h a List.mem_cons_self b b' d d' hr h1 h1') e e'

/-! ## The dynamics -/

/-- Where the states of the contacts are. -/
def Indexed (ni : ℕ) (o : Observer) : Prop := ∀ c ∈ o.contacts, c.isSet = true → ∃ n, c.index = .ok (19 + 3 * ni + 13 * n)

theorem indexed (hi : Inv nc ni o) : Indexed ni o := fun c hc hs => by
  obtain ⟨n, hn⟩ := List.mem_iff_getElem?.1 hc
  exact ⟨n, (contact_index hi hn hs).1⟩

theorem wrench_place {n j : ℕ} (hj : j < 6) : ¬InertPlace ni (19 + 3 * ni + 13 * n + 7 + j) := by
  unfold InertPlace
  omega

theorem stateKine_same (hi : Inv nc ni o) (h : Same ni x x') : o.stateKine x = o.stateKine x' := by
  obtain ⟨-, iw, -⟩ := indices hi
  have it : o.unmodeledTorqueIndex = .ok (16 + 3 * ni) := (start_eq hi .unmodeledTorque _).2 ⟨trivial, rfl⟩
  have e1 : o.addUnmodeledAndContactWrench x (o.addForce, o.addTorque) = o.addUnmodeledAndContactWrench x' (o.addForce, o.addTorque) := by
    simp only [addUnmodeledAndContactWrench, iw, it, Res.ok_bind]
    rw [seg_same h (n := 3) (i := 13 + 3 * ni) fun j hj => by unfold InertPlace; omega,
      seg_same h (n := 3) (i := 16 + 3 * ni) fun j hj => by unfold InertPlace; omega]
    congr 1; funext f
    congr 1; funext g
    refine foldlM_congr_mem _ _ fun c hc w => ?_
    unfold addContactWrench
    split_ifs with hs
    · obtain ⟨n, hn⟩ := indexed hi c hc hs
      simp only [hn, Res.ok_bind]
      rw [seg_same h (n := 3) (i := 19 + 3 * ni + 13 * n + 7) fun j hj => wrench_place (by omega),
        seg_same h (n := 3) (i := 19 + 3 * ni + 13 * n + 7 + 3) fun j hj => by rw [add_assoc _ 3 j]; exact wrench_place (by omega)]
    · rfl
  unfold stateKine
  rw [e1, seg_same h (n := 13) (i := kineIndex) fun j hj => by unfold InertPlace kineIndex; omega]

/-- The relation between two runs from `x` and `x'`. -/
def Runs (ni : ℕ) (x x' : DVec) (a a' : DVec × Kin) : Prop :=
  a.2 = a'.2 ∧ Same ni a.1 a'.1 ∧ (∀ k, InertPlace ni k → at1 a.1 k = at1 x k) ∧ ∀ k, InertPlace ni k → at1 a'.1 k = at1 x' k

theorem contactDynamics_same {c : Contact} (hx : c.isSet = true → ∃ n, c.index = .ok (19 + 3 * ni + 13 * n)) {a a' b b' : DVec × Kin} (h : Runs ni x x' a a')
    (e : contactDynamics a c = .ok b) (e' : contactDynamics a' c = .ok b') : Runs ni x x' b b' := by
  obtain ⟨h0, h1, h2, h3⟩ := h
  unfold contactDynamics at e e'
  split_ifs at e e' with hs
  · obtain ⟨n, hn⟩ := hx hs
    rw [h0] at e
    simp only [Res.bind_eq_ok] at e e'
    obtain ⟨_, q1, _, q2, _, q3, _, q4, _, q5, _, q6, _, q7, _, q8, _, q9, _, q10, x1, q11, _, q12, _, q13, _, q14, x2, q15, e⟩ := e
    obtain ⟨_, p1, _, p2, _, p3, _, p4, _, p5, _, p6, _, p7, _, p8, _, p9, _, p10, x1', p11, _, p12, _, p13, _, p14, x2', p15, e'⟩ := e'
    rw [q1] at p1; cases p1
    rw [q2] at p2; cases p2
    rw [q3] at p3; cases p3
    rw [q4] at p4; cases p4
    rw [q5] at p5; cases p5
    rw [q6] at p6; cases p6
    rw [q7] at p7; cases p7
    rw [q8] at p8; cases p8
    rw [q9] at p9; cases p9
    rw [q10] at p10; cases p10
    rw [q12] at p12; cases p12
    rw [q13] at p13; cases p13
    rw [q14] at p14; cases p14
    rw [hn] at q7; cases q7
    cases e; cases e'
    obtain ⟨r1, r2, r3⟩ := setSeg_same h1 q11 p11 fun j hj => wrench_place (by omega)
    obtain ⟨s1, s2, s3⟩ := setSeg_same r1 q15 p15 fun j hj => by rw [add_assoc _ 3 j]; exact wrench_place (by omega)
    exact ⟨rfl, s1, fun k hk => by rw [s2 k hk, r2 k hk, h2 k hk], fun k hk => by rw [s3 k hk, r3 k hk, h3 k hk]⟩
  · cases e; cases e'
    exact ⟨h0, h1, h2, h3⟩

theorem setList_same (h : Same ni x x') {n i : ℕ} {l : List ℝ} {r r' : DVec} (e : x.setList n i l = .ok r) (e' : x'.setList n i l = .ok r')
    (hn : ∀ j, j < n → ¬InertPlace ni (i + j)) : Same ni r r' ∧ (∀ k, InertPlace ni k → at1 r k = at1 x k) ∧ ∀ k, InertPlace ni k → at1 r' k = at1 x' k := by
  unfold DVec.setList at e e'
  split_ifs at e e' with hl
  exact setSeg_same h e e' hn

theorem stateDynamics_same (hi : Inv nc ni o) (h : Same ni x x') {xb xb' : DVec} (e : o.stateDynamics x = .ok xb) (e' : o.stateDynamics x' = .ok xb') :
    Same ni xb xb' ∧ (∀ k, InertPlace ni k → at1 xb k = at1 x k) ∧ ∀ k, InertPlace ni k → at1 xb' k = at1 x' k := by
  unfold stateDynamics at e e'
  rw [stateKine_same hi h] at e
  simp only [Res.bind_eq_ok] at e e'
  obtain ⟨_, q1, _, q2, r, q3, y, q4, a, q5, e⟩ := e
  obtain ⟨_, p1, _, p2, _, p3, y', p4, a', p5, e'⟩ := e'
  rw [q1] at p1; cases p1
  rw [q2] at p2; cases p2
  rw [q3] at p3; cases p3
  cases e; cases e'
  obtain ⟨r1, r2, r3⟩ := setList_same h q4 p4 fun j hj => by unfold InertPlace kineIndex; omega
  obtain ⟨-, t1, t2, t3⟩ := foldlM_two (Runs ni x x') o.contacts (y, r.2) (y', r.2) a a' (fun c hc b b' d d' hb q q' => contactDynamics_same (indexed hi c hc) hb q q')
    ⟨rfl, r1, r2, r3⟩ q5 p5
  exact ⟨t1, t2, t3⟩

/-! ## The sensors -/

theorem measureDynamics_same (hi : Indexed ni o) (hk : o.stateKine x = o.stateKine x') (h : Same ni x x') (k : Int) :
    o.measureDynamics x k = o.measureDynamics x' k := by
  unfold measureDynamics
  rw [hk]
  congr 1; funext n
  congr 1; funext kin
  congr 1; funext a
  congr 1
  refine foldlM_congr_mem _ _ fun c hc w => ?_
  unfold measureContact
  split_ifs with hs
  · obtain ⟨n, hn⟩ := hi c hc hs.1
    simp only [hn, Res.ok_bind]
    rw [seg_same h (n := 6) (i := 19 + 3 * ni + 13 * n + 7) fun j hj => wrench_place (by omega)]
  · rfl

/-! ## Sum and difference -/

/-- An increment that is zero on a component leaves it. -/
theorem sum_zero (hi : Inv nc ni o) (hx : x.size = 19 + ni * 3 + nc * 13) (ht : t.size = 18 + ni * 3 + 12 * nc) (e : o.stateSum x t = .ok s) {k : ℕ}
    (h : ∀ c, InUse o ni c → regS ni c k → ∀ j, regT ni c j → at1 t j = 0) : at1 s k = at1 x k := by
  obtain ⟨s', e', -, d1, d2⟩ := stateSum_value hi hx ht
  rw [e] at e'
  cases e'
  by_cases hc : ∃ c, InUse o ni c ∧ regS ni c k
  · obtain ⟨c, hu, hr⟩ := hc
    have hz := h c hu hr
    obtain ⟨v1, v2⟩ := d1 c hu
    cases ht : c.isTurn with
    | false =>
      have hs := size_plain ht
      obtain ⟨j, rfl⟩ : ∃ j, k = off ni c + j := ⟨k - off ni c, by have := hr.1; omega⟩
      have hj : j < 3 := by have := hr.2; omega
      rw [v1 ht j hj, hz _ ⟨by omega, by omega⟩, add_zero]
    | true =>
      have hs := size_turn ht
      have h0 : at3 t (offT ni c) = 0 := by
        apply ext3 <;> rw [at3_eq]
        · exact hz _ ⟨by simp, by simp⟩
        · exact hz _ ⟨by simp, by simp⟩
        · exact hz _ ⟨by simp, by simp⟩
      have hq := v2 ht
      rw [h0, Imu.rvq_zero, Quat.one_mul] at hq
      obtain ⟨j, rfl⟩ : ∃ j, k = off ni c + j := ⟨k - off ni c, by have := hr.1; omega⟩
      have hj : j < 4 := by have := hr.2; omega
      simp only [quatAt_eq, Quat.mk.injEq] at hq
      obtain ⟨q1, q2, q3, q4⟩ := hq
      interval_cases j
      · exact q2
      · exact q3
      · exact q4
      · exact q1
  · push Not at hc
    exact d2 k hc

theorem rotation_scalar (w : ℝ) : quaternionToRotationVector ⟨w, 0, 0, 0⟩ = 0 := by
  have : nrm (Quat.vec ⟨w, 0, 0, 0⟩) = 0 := by
    rw [show Quat.vec ⟨w, 0, 0, 0⟩ = 0 from by apply ext3 <;> rfl, nrm_zero]
  rw [quaternionToRotationVector, AngleAxis.ofQuat]
  simp [this]

theorem differentiate_self (q : Quat) : (oriOf q).differentiate (oriOf q) = .ok 0 := by
  have h : ∃ w, q * q.inverse = ⟨w, 0, 0, 0⟩ := by
    unfold Quat.inverse
    split_ifs
    · refine ⟨q.normSq * (1 / q.normSq), ?_⟩
      ext <;> simp [Quat.scale, Quat.conj, Quat.normSq] <;> ring
    · exact ⟨0, by ext <;> simp⟩
  obtain ⟨w, hw⟩ := h
  show (Res.ok (quaternionToRotationVector (q * q.inverse)) : Res V3) = _
  rw [hw, rotation_scalar]

/-- The difference of equal components is zero; on a component not in use it is what was there. -/
theorem diff_zero (hi : Inv nc ni o) {old d : DVec} (ho : old.size = 18 + ni * 3 + 12 * nc) (hx : x.size = 19 + ni * 3 + nc * 13) (hy : y.size = 19 + ni * 3 + nc * 13)
    (e : o.stateDifference old x y = .ok d) {k : ℕ} (h : ∀ c, InUse o ni c → regT ni c k → ∀ j, regS ni c j → at1 x j = at1 y j) (h0 : at1 old k = 0) :
    at1 d k = 0 := by
  obtain ⟨v, b, e', hz, hv, hd, hr⟩ := difference_full hi ho hx hy
  rw [e] at e'
  cases e'
  by_cases hc : ∃ c, InUse o ni c ∧ regT ni c k
  · obtain ⟨c, hu, hk⟩ := hc
    have hxy := h c hu hk
    obtain ⟨v1, v2⟩ := hd.1 c hu
    obtain ⟨j, rfl⟩ : ∃ j, k = offT ni c + j := ⟨k - offT ni c, by have := hk.1; omega⟩
    have hj : j < 3 := by have := hk.2; omega
    cases ht : c.isTurn with
    | false =>
      have hs := size_plain ht
      rw [hv _ _ (v1 ht j hj), hxy _ ⟨by omega, by omega⟩, sub_self]
    | true =>
      have hs := size_turn ht
      obtain ⟨r, er, hr⟩ := v2 ht
      have : quatAt x (off ni c) = quatAt y (off ni c) := by
        simp only [quatAt_eq]
        rw [hxy _ ⟨by omega, by omega⟩, hxy _ ⟨by omega, by omega⟩, hxy _ ⟨by omega, by omega⟩, hxy _ ⟨by omega, by omega⟩]
      rw [this, differentiate_self] at er
      cases er
      exact hv _ _ (hr ⟨j, hj⟩)
  · push Not at hc
    rw [hr k hc, h0]

/-! ## The Jacobians -/

/-- An increment of one coordinate. -/
theorem unit_at {n : ℕ} (i : Fin n) (h : ℝ) {k : ℕ} (hk : k ≠ i.1) : at1 ⟨n, fun j => if j = i then h else 0⟩ k = 0 := by
  unfold at1
  split_ifs with h1
  · exact if_neg fun h2 => hk (congrArg Fin.val h2)
  · rfl

/-- After an increment of a row `inert`, the state is the same but for the components `inert`. -/
theorem sum_unit_inert (hi : Inv nc ni o) (hx : x.size = 19 + ni * 3 + nc * 13) {i : Fin (18 + ni * 3 + 12 * nc)} {h : ℝ} (hr : InertRow ni i)
    (e : o.stateSum x ⟨_, fun j => if j = i then h else 0⟩ = .ok s) : Same ni x s := by
  obtain ⟨s', e', hz, -⟩ := stateSum_value hi hx (t := ⟨_, fun j => if j = i then h else 0⟩) rfl
  rw [e] at e'
  cases e'
  refine ⟨hx.trans hz.symm, fun k hk => (sum_zero hi hx rfl e fun c hu hc j hj => unit_at i h ?_).symm⟩
  rintro rfl
  exact hk ((place_iff (hu.valid hi) hc).2 ((row_iff (hu.valid hi) hj).1 hr))

/-- After an increment of another row, the components `inert` are the same. -/
theorem sum_unit_other (hi : Inv nc ni o) (hx : x.size = 19 + ni * 3 + nc * 13) {i : Fin (18 + ni * 3 + 12 * nc)} {h : ℝ} (hr : ¬InertRow ni i)
    (e : o.stateSum x ⟨_, fun j => if j = i then h else 0⟩ = .ok s) : s.size = x.size ∧ ∀ k, InertPlace ni k → at1 s k = at1 x k := by
  obtain ⟨s', e', hz, -⟩ := stateSum_value hi hx (t := ⟨_, fun j => if j = i then h else 0⟩) rfl
  rw [e] at e'
  cases e'
  refine ⟨hz.trans hx.symm, fun k hk => sum_zero hi hx rfl e fun c hu hc j hj => unit_at i h ?_⟩
  rintro rfl
  exact hr ((row_iff (hu.valid hi) hj).2 ((place_iff (hu.valid hi) hc).1 hk))

theorem same_refl (x : DVec) : Same ni x x := ⟨rfl, fun _ _ => rfl⟩

theorem jacobian_apart (hi : Inv nc ni o) (hx : x.size = 19 + ni * 3 + nc * 13) {xb dx : DVec} (ex : o.stateDynamics x = .ok xb)
    {A : Matrix (Fin (18 + ni * 3 + 12 * nc)) (Fin (18 + ni * 3 + 12 * nc)) ℝ}
    (hA : EKF.FDJacobian o.stateSum o.stateDynamics o.stateDifference dx x xb A) : NoCross (InertRow ni) ⟨_, _, A⟩ := by
  intro r i hri
  obtain ⟨h, x', f', d, -, e1, e2, e3, hd⟩ := hA i
  have hb : xb.size = 19 + ni * 3 + nc * 13 := (stateDynamics_size ex).trans hx
  show A r i = 0
  rw [hd r]
  have hne : r.1 ≠ i.1 := fun h => by
    rw [h] at hri
    tauto
  have key : at1 ⟨18 + ni * 3 + 12 * nc, d⟩ r.1 = 0 := by
    by_cases hr : InertRow ni i
    · have hs := sum_unit_inert hi hx hr e1
      obtain ⟨s1, -⟩ := stateDynamics_same hi hs ex e2
      refine diff_zero hi rfl (s1.size ▸ hb) hb e3 (fun c hu hc j hj => (s1.at' j fun hp => ?_).symm) (unit_at i h hne)
      have := (row_iff (hu.valid hi) hc).2 ((place_iff (hu.valid hi) hj).1 hp)
      tauto
    · obtain ⟨hz, hs⟩ := sum_unit_other hi hx hr e1
      obtain ⟨-, s2, -⟩ := stateDynamics_same hi (same_refl x) ex ex
      obtain ⟨-, s3, -⟩ := stateDynamics_same hi (same_refl x') e2 e2
      have hf : f'.size = 19 + ni * 3 + nc * 13 := (stateDynamics_size e2).trans (hz.trans hx)
      refine diff_zero hi rfl hf hb e3 (fun c hu hc j hj => ?_) (unit_at i h hne)
      have hp : InertPlace ni j := (place_iff (hu.valid hi) hj).2 ((row_iff (hu.valid hi) hc).1 (hri.2 hr))
      rw [s3 j hp, hs j hp, s2 j hp]
  rw [at1, dif_pos (show r.1 < 18 + ni * 3 + 12 * nc from r.2)] at key
  rw [show d r = 0 from key, zero_div]

theorem jacobian_blind (hi : Inv nc ni o) {oy : Observer} (hs : oy.stateSum = o.stateSum) (hk : oy.stateKine = o.stateKine) (hx : Indexed ni oy)
    {xb dx : DVec} (hb : xb.size = 19 + ni * 3 + nc * 13) {m : ℕ} {yb : Fin m → ℝ} {k : Int} (ey : oy.measureDynamics xb k = .ok ⟨m, yb⟩)
    {C : Matrix (Fin m) (Fin (18 + ni * 3 + 12 * nc)) ℝ}
    (hC : EKF.FDJacobian oy.stateSum (fun z => oy.measureDynamics z k) (fun _ => DVec.sub) dx xb ⟨m, yb⟩ C) (r : Fin m) (i : Fin (18 + ni * 3 + 12 * nc))
    (hr : InertRow ni i) : C r i = 0 := by
  obtain ⟨h, x', f', d, -, e1, e2, e3, hd⟩ := hC i
  rw [hs] at e1
  have hsame := sum_unit_inert hi hb hr e1
  simp only at e2
  rw [← measureDynamics_same hx (by rw [hk, stateKine_same hi hsame]) hsame, ey] at e2
  cases e2
  rw [hd r]
  simp only [DVec.sub, dif_pos, Res.ok.injEq, DVec.mk.injEq, heq_eq_eq, true_and] at e3
  rw [← e3]
  simp

/-! ## The filter -/

section
variable {n m : ℕ} {S : ℕ → Prop} {A Q P : Matrix (Fin n) (Fin n) ℝ} {C : Matrix (Fin m) (Fin n) ℝ} {R : Matrix (Fin m) (Fin m) ℝ}

theorem NoCross.mul {A B : Matrix (Fin n) (Fin n) ℝ} (hA : NoCross S ⟨n, n, A⟩) (hB : NoCross S ⟨n, n, B⟩) : NoCross S ⟨n, n, A * B⟩ := by
  intro i j hij
  show (A * B) i j = 0
  rw [Matrix.mul_apply]
  refine Finset.sum_eq_zero fun k _ => ?_
  by_cases hk : S i ↔ ¬S k
  · rw [show A i k = 0 from hA i k hk, zero_mul]
  · rw [show B k j = 0 from hB k j (by tauto), mul_zero]

theorem NoCross.transpose (hA : NoCross S ⟨n, n, A⟩) : NoCross S ⟨n, n, Aᵀ⟩ := fun i j hij => hA j i (by tauto)

theorem NoCross.add {A B : Matrix (Fin n) (Fin n) ℝ} (hA : NoCross S ⟨n, n, A⟩) (hB : NoCross S ⟨n, n, B⟩) : NoCross S ⟨n, n, A + B⟩ := fun i j hij => by
  show A i j + B i j = 0
  rw [show A i j = 0 from hA i j hij, show B i j = 0 from hB i j hij, add_zero]

theorem predCov_apart (hA : NoCross S ⟨n, n, A⟩) (hQ : NoCross S ⟨n, n, Q⟩) (hP : NoCross S ⟨n, n, P⟩) : NoCross S ⟨n, n, KFSpec.predCov A Q P⟩ :=
  ((hA.mul hP).mul hA.transpose).add hQ

theorem cross_zero (hP : NoCross S ⟨n, n, P⟩) (hC : ∀ r i, S i.1 → C r i = 0) (i : Fin n) (hi : S i) (r : Fin m) : (P * Cᵀ) i r = 0 := by
  rw [Matrix.mul_apply]
  refine Finset.sum_eq_zero fun k _ => ?_
  by_cases hk : S k
  · rw [transpose_apply, hC r k hk, mul_zero]
  · rw [show P i k = 0 from hP i k (by tauto), zero_mul]

theorem gain_zero (hP : NoCross S ⟨n, n, P⟩) (hC : ∀ r i, S i.1 → C r i = 0) (i : Fin n) (hi : S i) (r : Fin m) : KFSpec.gain C R P i r = 0 := by
  rw [KFSpec.gain, Matrix.mul_apply]
  exact Finset.sum_eq_zero fun k _ => by rw [cross_zero hP hC i hi, zero_mul]

theorem posterior_apart (hP : NoCross S ⟨n, n, P⟩) (hC : ∀ r i, S i.1 → C r i = 0) : NoCross S ⟨n, n, KFSpec.posterior C R P⟩ := by
  intro i j hij
  show KFSpec.posterior C R P i j = 0
  rw [KFSpec.posterior, Matrix.sub_mul, Matrix.one_mul, Matrix.sub_apply, show P i j = 0 from hP i j hij, Matrix.mul_assoc, Matrix.mul_apply, zero_sub, neg_eq_zero]
  refine Finset.sum_eq_zero fun r _ => ?_
  by_cases hi : S i
  · rw [gain_zero hP hC i hi, zero_mul]
  · have hj : S j := by tauto
    have : (C * P) r j = 0 := by
      rw [Matrix.mul_apply]
      refine Finset.sum_eq_zero fun k _ => ?_
      by_cases hk : S k
      · rw [hC r k hk, zero_mul]
      · rw [show P k j = 0 from hP k j (by tauto), mul_zero]
    rw [this, mul_zero]
end

/-- The default covariances are kept by the estimation. -/
theorem update_defaults (hu : o.update = .ok o') : o'.gyroBiasInit = o.gyroBiasInit ∧ o'.unmodeledInit = o.unmodeledInit ∧ o'.contactInit = o.contactInit ∧
    o'.contactProc = o.contactProc := by
  unfold Observer.update at hu
  split_ifs at hu
  · simp only [Res.bind_eq_ok] at hu
    obtain ⟨⟨o1, y, cov⟩, e1, e, -, e3⟩ := hu
    obtain ⟨imus, contacts, abs, a, b, rfl, -⟩ := buildMeasurement_ok e1
    simp only [afterFilter, Res.bind_eq_ok] at e3
    obtain ⟨x, -, o2, e4, e5⟩ := e3
    simp only [updateKine, Res.bind_eq_ok] at e4
    obtain ⟨s, -, k, -, e4⟩ := e4
    cases e4
    split_ifs at e5
    · simp only [estimateAccelerations, Res.bind_eq_ok] at e5
      obtain ⟨_, -, _, -, e5⟩ := e5
      cases e5
      exact ⟨rfl, rfl, rfl, rfl⟩
    · cases e5
      exact ⟨rfl, rfl, rfl, rfl⟩
  · cases hu
    exact ⟨rfl, rfl, rfl, rfl⟩

/-- The observer with the sensors packed. -/
theorem inv_packed (hi : Inv nc ni o) {imus : List IMU} {contacts : List Contact} {a b : ℕ}
    (h1 : List.Forall₂ (fun m m' => ∃ j, m' = { m with measIndex := j }) o.imus imus)
    (h2 : List.Forall₂ (fun c c' => ∃ j, c' = { c with measIndex := j }) o.contacts contacts) :
    Inv nc ni { o with imus := imus, contacts := contacts, measSize := a, measTangentSize := b } := by
  refine ⟨hi.1, { hi.2 with imuLen := ?_, conLen := ?_, conIdx := ?_, conSensor := ?_, imuTime := ?_, conTime := ?_ }⟩
  · simpa [← h1.length_eq] using hi.2.imuLen
  · rcases hi.2.conLen with e | e
    · left; simpa [← h2.length_eq] using e
    · right
      rw [e] at h2
      cases h2; rfl
  · intro i c hc
    obtain ⟨c', hc', j, rfl⟩ := forall₂_get h2 i c hc
    exact hi.2.conIdx i c' hc'
  · intro c hc
    obtain ⟨c', hc', j, rfl⟩ := forall₂_mem h2 c hc
    exact hi.2.conSensor c' hc'
  · intro c hc
    obtain ⟨c', hc', j, rfl⟩ := forall₂_mem h1 c hc
    exact hi.2.imuTime c' hc'
  · intro c hc
    obtain ⟨c', hc', j, rfl⟩ := forall₂_mem h2 c hc
    exact hi.2.conTime c' hc'

/-- **Estimation**: the components `inert` of the state of the filter are kept, and the covariances stay without cross terms. -/
theorem inert_update {l : List Op} (hg : ∀ op ∈ l, op.GoodCov) (h : Reachable nc ni l o) (ha : ApartInv ni o) (hk : o.kEst ≠ o.kData) (hu : o.update = .ok o') :
    ApartInv ni o' ∧ ∃ x, o.ekf.x = some (x, o.kEst) ∧ ∀ k, InertPlace ni k → at1 o'.x k = at1 x k := by
  have hi := inv_reachable h
  obtain ⟨oy, x, xb, xn, m, y, yb, P, Q, A, C, R, ⟨imus, contacts, abs, a, b, rfl, f1, f2⟩, -, hx, hP, hQ, -, -, exb, eyb, hA, hC, -, exn, -, ex', -, eP, eQ⟩ :=
    C85_step hg h hk hu
  obtain ⟨oz, hoz⟩ : ∃ oz : Observer, oz = { o with imus := imus, contacts := contacts, measSize := a, measTangentSize := b } := ⟨_, rfl⟩
  have hz : Inv nc ni oz := by rw [hoz]; exact inv_packed hi f1 f2
  have exb' : oz.stateDynamics x = .ok xb := by rw [hoz]; exact exb
  have hA' : EKF.FDJacobian oz.stateSum oz.stateDynamics oz.stateDifference o.dx x xb A := by rw [hoz]; exact hA
  have exn' : oz.stateSum xb ⟨_, KFSpec.gain C R (KFSpec.predCov A Q P) *ᵥ (y - yb)⟩ = .ok xn := by rw [hoz]; exact exn
  obtain ⟨v, hv, hvs⟩ := hi.2.ekf.x
  have hxs : x.size = 19 + ni * 3 + nc * 13 := by
    rw [hx] at hv
    cases hv
    exact hvs
  have hbs : xb.size = 19 + ni * 3 + nc * 13 := (stateDynamics_size exb').trans hxs
  have hAA := jacobian_apart hz hxs exb' hA'
  have hCC := jacobian_blind hz (by rw [hoz]; rfl) (by rw [hoz]; rfl) (fun c hc hs => indexed hz c (by rw [hoz]; exact hc) hs) hbs eyb hC
  have hPP : NoCross (InertRow ni) ⟨_, _, P⟩ := hP ▸ ha.pr
  have hQQ : NoCross (InertRow ni) ⟨_, _, Q⟩ := hQ ▸ ha.q
  have hM := predCov_apart hAA hQQ hPP
  obtain ⟨d1, d2, d3, d4⟩ := update_defaults hu
  refine ⟨⟨?_, ?_, d1 ▸ ha.gI, d2 ▸ ha.uI, d3 ▸ ha.cI, d4 ▸ ha.cP⟩, x, hx, fun k hp => ?_⟩
  · rw [show o'.ekf.st.pr = _ from eP]
    exact posterior_apart hM hCC
  · rw [eQ]
    exact hQQ
  · obtain ⟨-, s2, -⟩ := stateDynamics_same hz (same_refl x) exb' exb'
    rw [show o'.x = xn from ex', ← s2 k hp]
    refine sum_zero hz hbs rfl exn' fun c hu hc j hj => ?_
    have hr : InertRow ni j := (row_iff (hu.valid hz) hj).2 ((place_iff (hu.valid hz) hc).1 hp)
    unfold at1
    split_ifs with hjn
    · simp only [Matrix.mulVec, dotProduct]
      exact Finset.sum_eq_zero fun r _ => by rw [gain_zero hM hCC ⟨j, hjn⟩ hr, zero_mul]
    · rfl

theorem isSet_packed {cs cs' : List Contact} (h : List.Forall₂ (fun c c' => ∃ j, c' = { c with measIndex := j }) cs cs') (n : ℕ) :
    (∃ c, cs'[n]? = some c ∧ c.isSet = true) ↔ ∃ c, cs[n]? = some c ∧ c.isSet = true := by
  induction h generalizing n with
  | nil => exact Iff.rfl
  | cons h1 _ ih =>
    obtain ⟨j, rfl⟩ := h1
    cases n with
    | zero => simp
    | succ n => simpa using ih n

/-- The estimation keeps the contacts. -/
theorem update_isSet (hu : o.update = .ok o') (n : ℕ) : IsSet o' n ↔ IsSet o n := by
  unfold Observer.update at hu
  split_ifs at hu
  · simp only [Res.bind_eq_ok] at hu
    obtain ⟨⟨o1, y, cov⟩, e1, e, -, e3⟩ := hu
    obtain ⟨imus, contacts, abs, a, b, rfl, -, f2, -⟩ := buildMeasurement_ok e1
    simp only [afterFilter, Res.bind_eq_ok] at e3
    obtain ⟨x, -, o2, e4, e5⟩ := e3
    simp only [updateKine, Res.bind_eq_ok] at e4
    obtain ⟨s, -, k, -, e4⟩ := e4
    cases e4
    split_ifs at e5
    · simp only [estimateAccelerations, Res.bind_eq_ok] at e5
      obtain ⟨_, -, _, -, e5⟩ := e5
      cases e5
      exact isSet_packed f2 n
    · cases e5
      exact isSet_packed f2 n
  · cases hu
    exact Iff.rfl

theorem update_exists (hu : o.update = .ok o') (c : Comp) : Exists o' ni c ↔ Exists o ni c := by
  cases c <;> first | exact Iff.rfl | exact update_isSet hu _

/-! ## Executions -/

theorem apart_reachable {l : List Op} (hg : ∀ op ∈ l, op.GoodCov) (ha : ∀ op ∈ l, op.Apart ni) (h : Reachable nc ni l o) : ApartInv ni o := by
  induction l using List.reverseRecOn generalizing o with
  | nil =>
    obtain ⟨o0, h0, h1⟩ := h
    cases h1
    exact (both_construct h0).2
  | append_singleton l op ih =>
    obtain ⟨o0, h0, h1⟩ := h
    obtain ⟨o1, e1, e2⟩ := run_append.1 h1
    obtain ⟨o2, e2, e3⟩ := run_cons.1 e2
    cases e3
    have hr : Reachable nc ni l o1 := ⟨o0, h0, e1⟩
    have hg' : ∀ op ∈ l, op.GoodCov := fun p hp => hg p (by simp [hp])
    have i1 := ih hg' (fun p hp => ha p (by simp [hp])) hr
    by_cases hu : op = .update
    · subst hu
      by_cases hk : o1.kEst = o1.kData
      · simp only [Op.exec, Observer.update, if_neg (not_not.2 hk)] at e2
        cases e2
        exact i1
      · exact (inert_update hg' hr i1 hk e2).1
    · exact apart_exec op hu (ha op (by simp)) (inv_reachable hr) i1 e2

end StateObs.KO
