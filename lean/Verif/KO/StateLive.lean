import Verif.KO.StateSet
import Verif.KO.CovLemmas
import Verif.KO.PsdProps
import Verif.OutcomeLaws
/-!
# When the setters of the state return
-/

namespace StateObs.KO
open StateObs Matrix Rot Kine KF
open Observer

variable {nc ni : ℕ} {o o' : Observer}

theorem pushState_live (hi : Inv nc ni o) {x : DVec} (hx : x.size = 19 + ni * 3 + nc * 13) (k : Kin) :
    ∃ e, pushState { o with stateKin := k, x := x } = .ok { o with stateKin := k, x := x, ekf := e } ∧ Inv nc ni { o with stateKin := k, x := x, ekf := e } := by
  obtain ⟨o2, h2⟩ := pushState_some hi hx k
  have hi2 := Observer.inv_pushState' (o := { o with stateKin := k }) hi h2
  obtain ⟨a, b, c, rfl⟩ := pushState_ok h2
  exact ⟨_, h2, hi2⟩

theorem withP_one (hi : Inv nc ni o) {n : ℕ} {j : Res ℕ} {i : ℕ} (hj : j = .ok i) (B : Matrix (Fin n) (Fin n) ℝ) (h : i + n ≤ 18 + ni * 3 + 12 * nc) :
    ∃ e, (o.withP fun P => j >>= fun i => setBlockStateCovariance n P (dm B) i) = .ok { o with ekf := e } := by
  obtain ⟨P, hP⟩ := (DMat.hasSize_iff o.ekf.st.pr o.tangentSize o.tangentSize).1 (by rw [inv_tangentSize hi]; exact hi.2.ekf.pr)
  have hN := inv_tangentSize hi
  have hc : o.ekf.st.checkP ⟨o.tangentSize, o.tangentSize, replaceBlock P i B⟩ = true := by rw [KData.checkP, hi.2.ekf.nt, ← hN]; exact DMat.hasSize_mk ..
  refine ⟨{ o.ekf with st := { o.ekf.st with pr := ⟨o.tangentSize, o.tangentSize, replaceBlock P i B⟩ } }, ?_⟩
  simp only [withP, hP, hj, Res.ok_bind, dm, setBlockStateCovariance_mk P i B (by omega), KF.setStateCovariance, hc, Res.assert_true]

theorem setGyroBias_live (hi : Inv nc ni o) (b : V3) {i : ℕ} (h : i < ni) (r : Bool) :
    ∃ x e, o.setGyroBias b i r = .ok { o with x := x, ekf := e } := by
  have hj : o.gyroBiasIndex i = .ok (13 + 3 * i) := (gyroBiasIndex_eq i _).2 ⟨by rw [hi.1.2]; exact h, rfl⟩
  obtain ⟨x, ex, hx, -⟩ := setSeg_live (i := 13 + 3 * i) (v := o.x) b (by rw [hi.2.xSize]; omega)
  obtain ⟨e, he, hi2⟩ := pushState_live hi (x := x) (by rw [hx, hi.2.xSize]) o.stateKin
  have he2 : pushState { o with x := x } = .ok { o with x := x, ekf := e } := he
  cases r with
  | false => exact ⟨x, e, by simp only [setGyroBias, hj, Res.ok_bind, ex, he2]; rfl⟩
  | true =>
    have hj2 : Observer.gyroBiasIndex { o with x := x, ekf := e } i = .ok (13 + 3 * i) := hj
    obtain ⟨e', he'⟩ := withP_one (o := { o with x := x, ekf := e }) hi2 hj2 o.gyroBiasInit (by omega)
    exact ⟨x, e', by simp only [setGyroBias, hj, Res.ok_bind, ex, he2, if_true]; exact he'⟩

theorem setStateUnmodeledWrench_live (hi : Inv nc ni o) (w : V6) {r : Bool} (hr : r = true → 0 < nc) :
    ∃ x e, o.setStateUnmodeledWrench w r = .ok { o with x := x, ekf := e } := by
  have hj : o.unmodeledWrenchIndex = .ok (13 + 3 * ni) := (start_eq hi .unmodeledForce _).2 ⟨trivial, rfl⟩
  obtain ⟨x, ex, hx, -⟩ := setSeg_live (i := 13 + 3 * ni) (v := o.x) w (by rw [hi.2.xSize]; omega)
  obtain ⟨e, he, hi2⟩ := pushState_live hi (x := x) (by rw [hx, hi.2.xSize]) o.stateKin
  have he2 : pushState { o with x := x } = .ok { o with x := x, ekf := e } := he
  cases r with
  | false => exact ⟨x, e, by simp only [setStateUnmodeledWrench, hj, Res.ok_bind, ex, he2]; rfl⟩
  | true =>
    have := hr rfl
    have hj2 : Observer.unmodeledWrenchIndex { o with x := x, ekf := e } = .ok (13 + 3 * ni) := hj
    obtain ⟨e', he'⟩ := withP_one (o := { o with x := x, ekf := e }) hi2 hj2 o.unmodeledInit (by omega)
    exact ⟨x, e', by simp only [setStateUnmodeledWrench, hj, Res.ok_bind, ex, he2, if_true]; exact he'⟩

theorem setStateKinematics_live (hi : Inv nc ni o) {k : Kin} {p v w : V3} {R : M3} {a b : Option V3} (hk : k.Has ⟨some p, some R, some v, some w, a, b⟩) {f r : Bool}
    (hr : r = true → f = false ∨ ∀ n, ¬ IsSet o n) : ∃ x e k', o.setStateKinematics k f r = .ok { o with x := x, ekf := e, stateKin := k' } := by
  obtain ⟨q, k', et, -, -, -, -⟩ := toVector_state hk
  have ha : (k.pos.isSet dbg && k.ori.isSet && k.linVel.isSet dbg && k.angVel.isSet dbg) = true := by
    rw [hk.pos.isSet, hk.linVel.isSet, hk.angVel.isSet, Kine.Holds.isSet (R := some R) hk.ori]; rfl
  obtain ⟨x1, ex1, hx1, -⟩ := setList_live (n := 13) (i := kineIndex) (v := o.x) (l := [p 0, p 1, p 2, q.x, q.y, q.z, q.w, v 0, v 1, v 2, w 0, w 1, w 2]) rfl
    (by rw [hi.2.xSize, kineIndex]; omega)
  obtain ⟨x2, ex2, hx2⟩ : ∃ x2, opt f (o.contacts.foldlM zeroWrench x1) x1 = .ok x2 ∧ x2.size = 19 + ni * 3 + nc * 13 := by
    cases f with
    | false => exact ⟨x1, rfl, by rw [hx1, hi.2.xSize]⟩
    | true =>
      refine Res.foldlM_live (fun x : DVec => x.size = 19 + ni * 3 + nc * 13) o.contacts x1 (fun x c hc hx => ?_) (by rw [hx1, hi.2.xSize])
      unfold zeroWrench
      split_ifs with hs
      · obtain ⟨m, hm⟩ := List.mem_iff_getElem?.1 hc
        obtain ⟨g1, -, -⟩ := hi.2.conIdx m c hm hs
        have hlt : m < nc := isSet_lt hi ⟨c, hm, hs⟩
        have hd : c.index = .ok (19 + ni * 3 + m * 13) := by
          have : decide (c.stateIndex > 0) = true := by rw [g1]; simp; omega
          rw [Contact.index, this, g1]; simp; omega
        obtain ⟨x', e', h1, -⟩ := setSeg_live (n := 6) (i := 19 + ni * 3 + m * 13 + 7) (v := x) 0 (by rw [hx]; nlinarith)
        exact ⟨x', by rw [hd, Res.ok_bind, e'], by rw [h1, hx]⟩
      · exact ⟨x, rfl, hx⟩
  obtain ⟨e, he, hi2⟩ := pushState_live hi (x := x2) hx2 { k with ori := k' }
  have key : o.setStateKinematics k f r = if r = true then Observer.resetKineCov { o with stateKin := { k with ori := k' }, x := x2, ekf := e } f else
      .ok { o with stateKin := { k with ori := k' }, x := x2, ekf := e } := by
    simp only [setStateKinematics, ha, Res.assert_true, Res.ok_bind, et, ex1, ex2, he]
  cases r with
  | false => exact ⟨x2, e, _, key⟩
  | true =>
    set o2 : Observer := { o with stateKin := { k with ori := k' }, x := x2, ekf := e } with ho2
    have hz : ∀ P : DMat, (if f = true then o2.contacts.foldlM (resetContactBlock o2) P else .ok P) = .ok P := by
      intro P
      rcases hr rfl with rfl | hn
      · rfl
      · have : ∀ (l : List Contact) (P : DMat), (∀ c ∈ l, c.isSet = false) → l.foldlM (resetContactBlock o2) P = .ok P := by
          intro l
          induction l with
          | nil => intro P _; rfl
          | cons c l ih =>
            intro P hl
            rw [List.foldlM_cons, resetContactBlock, hl c (by simp), if_neg (by simp), Res.ok_bind]
            exact ih P fun c hc => hl c (by simp [hc])
        rw [this o2.contacts P fun c hc => ?_]
        · split_ifs <;> rfl
        · by_contra hcs
          obtain ⟨m, hm⟩ := List.mem_iff_getElem?.1 hc
          exact hn m ⟨c, hm, by simpa using hcs⟩
    obtain ⟨e', he'⟩ := withP_one (o := o2) hi2 (j := .ok kineIndex) rfl o.kineInit (by rw [kineIndex]; omega)
    refine ⟨x2, e', { k with ori := k' }, ?_⟩
    rw [key, if_pos rfl, ← he', resetKineCov]
    congr 1
    funext P
    rw [Res.ok_bind]
    simp only [hz]
    exact bind_pure _

end StateObs.KO
