import Verif.KO.Filter
/-!
# The invariant of a `KineticsObserver`

It holds after the constructor and is kept by every call (lemmas of the property files).
-/

namespace StateObs
open StateObs

theorem Res.assert_ok {b : Bool} {a : Unit} (h : Res.assert b = .ok a) : b = true := by
  cases b
  · cases h
  · rfl

theorem Res.foldlM_inv {α β : Type} {f : β → α → Res β} (P : β → Prop) (hf : ∀ b a b', P b → f b a = .ok b' → P b') :
    ∀ (l : List α) (b b' : β), l.foldlM f b = .ok b' → P b → P b'
  | [], b, b', h, hb => by
    rw [List.foldlM_nil, Res.pure_eq] at h
    cases h; exact hb
  | a :: l, b, b', h, hb => by
    rw [List.foldlM_cons, Res.bind_eq_ok] at h
    obtain ⟨b1, h1, h2⟩ := h
    exact Res.foldlM_inv P hf l b1 b' h2 (hf b a b1 hb h1)

namespace DVec

theorem seg_ok {n : ℕ} {v : DVec} {i : ℕ} {w : Fin n → ℝ} (h : v.seg n i = .ok w) :
    ∃ hi : i + n ≤ v.size, w = fun j : Fin n => v.val ⟨i + j, by omega⟩ := by
  unfold seg at h
  split_ifs at h with hi
  exact ⟨hi, (Res.ok.inj h).symm⟩

theorem setSeg_ok {n : ℕ} {v v' : DVec} {i : ℕ} {w : Fin n → ℝ} (h : v.setSeg n i w = .ok v') :
    i + n ≤ v.size ∧ v' = ⟨v.size, fun j => if h : i ≤ j.1 ∧ j.1 < i + n then w ⟨j.1 - i, by omega⟩ else v.val j⟩ := by
  unfold setSeg at h
  split_ifs at h with hi
  exact ⟨hi, (Res.ok.inj h).symm⟩

theorem setSeg_size {n : ℕ} {v v' : DVec} {i : ℕ} {w : Fin n → ℝ} (h : v.setSeg n i w = .ok v') : v'.size = v.size := by
  rw [(setSeg_ok h).2]

theorem setList_size {n : ℕ} {v v' : DVec} {i : ℕ} {w : List ℝ} (h : v.setList n i w = .ok v') : v'.size = v.size := by
  unfold setList at h
  split_ifs at h with hi
  exact setSeg_size h

theorem addSeg_size {n : ℕ} {v v' t : DVec} {i j : ℕ} (h : v.addSeg n i t j = .ok v') : v'.size = v.size := by
  simp only [addSeg, Res.bind_eq_ok] at h
  obtain ⟨a, -, b, -, h⟩ := h
  exact setSeg_size h

end DVec

namespace KO
open Matrix Rot Kine KF

/-- What the observer relies on about its filter: sizes, the state at the time `k`, stored predictions that are not those of the next time, and at most the last
measurement in the buffer. -/
structure EkfOk (N NT : ℕ) (e : KFilter EKF.Ext) (k : Int) : Prop where
  n : e.st.n = N
  nt : e.st.nt = NT
  p : e.st.p = 0
  x : ∃ v : DVec, e.x = some (v, k) ∧ v.size = N
  pr : e.st.pr.hasSize NT NT = true
  q : e.st.q.hasSize NT NT = true
  xbar : ∀ v t, e.st.xbar = some (v, t) → t ≤ k
  ybar : ∀ v t, e.st.ybar = some (v, t) → t ≤ k
  y : e.y.v = [] ∨ e.y.k = k ∧ e.y.v.length = 1

/-- The invariant, as a function of the members it is about. -/
structure InvF (nc ni : ℕ) (contacts : List Contact) (imus : List IMU) (absTime : Int) (x : DVec) (ekf : KFilter EKF.Ext) (kEst kData : Int) : Prop where
  imuPos : 0 < ni
  imuLen : imus.length = ni
  conLen : contacts.length = nc ∨ contacts = []
  conIdx : ∀ (i : ℕ) c, contacts[i]? = some c → c.isSet = true →
    c.stateIndex = ((19 + ni * 3 + i * 13 : ℕ) : Int) ∧ c.stateIndexTangent = ((18 + ni * 3 + i * 12 : ℕ) : Int) ∧ c.visco.isSome = true
  conSensor : ∀ c ∈ contacts, c.withRealSensor = true → c.isSet = true
  xSize : x.size = 19 + ni * 3 + nc * 13
  time0 : 0 ≤ kEst
  time : kData = kEst ∨ kData = kEst + 1
  imuTime : ∀ m ∈ imus, m.time ≤ kData
  conTime : ∀ c ∈ contacts, c.time ≤ kData
  absTime : absTime ≤ kData
  ekf : EkfOk (19 + ni * 3 + nc * 13) (18 + ni * 3 + 12 * nc) ekf kEst

/-- The invariant. -/
def Inv (nc ni : ℕ) (o : Observer) : Prop :=
  (o.maxContacts = nc ∧ o.maxIMU = ni) ∧ InvF nc ni o.contacts o.imus o.abs.time o.x o.ekf o.kEst o.kData

namespace Observer

variable {nc ni : ℕ} {o o' : Observer}

theorem inv_withP {f : DMat → Res DMat} (h : Inv nc ni o) (e : o.withP f = .ok o') : Inv nc ni o' := by
  simp only [withP, Res.bind_eq_ok, KF.setStateCovariance] at e
  obtain ⟨P, -, e1, ⟨a, ha, h1⟩, h2⟩ := e
  cases h1; cases h2
  refine ⟨h.1, { h.2 with ekf := { h.2.ekf with pr := ?_ } }⟩
  have := Res.assert_ok ha
  rwa [KData.checkP, h.2.ekf.nt] at this

theorem inv_withQ {f : DMat → Res DMat} (h : Inv nc ni o) (e : o.withQ f = .ok o') : Inv nc ni o' := by
  simp only [withQ, Res.bind_eq_ok, KF.setQ] at e
  obtain ⟨P, -, e1, ⟨a, ha, h1⟩, h2⟩ := e
  cases h1; cases h2
  refine ⟨h.1, { h.2 with ekf := { h.2.ekf with q := ?_ } }⟩
  have := Res.assert_ok ha
  rwa [KData.checkQ, h.2.ekf.nt] at this

theorem ekf_setState {N NT : ℕ} {e e' : KFilter EKF.Ext} {k : Int} {v : DVec} (hn : e.st.n = N) (hnt : e.st.nt = NT) (hp : e.st.p = 0)
    (hpr : e.st.pr.hasSize NT NT = true) (hq : e.st.q.hasSize NT NT = true) (hx : ∀ v t, e.st.xbar = some (v, t) → t ≤ k)
    (hy : ∀ v t, e.st.ybar = some (v, t) → t ≤ k) (hb : e.y.v = [] ∨ e.y.k = k ∧ e.y.v.length = 1)
    (h : Obs.setState (KF.cfg e) e v k = .ok e') : EkfOk N NT e' k ∧ v.size = N := by
  simp only [Obs.setState, Res.bind_eq_ok, Obs.getCurrentTime, lt_irrefl, if_false, Res.ok.injEq, cfg, hp] at h
  obtain ⟨a, ha, _, rfl, h⟩ := h
  rw [if_neg (lt_irrefl _)] at h
  cases h
  have hv : v.size = N := by
    have := Res.assert_ok ha
    simpa [DVec.hasSize, hn] using this
  refine ⟨⟨hn, hnt, hp, ⟨v, rfl, hv⟩, hpr, hq, hx, hy, ?_⟩, hv⟩
  left
  rcases hb with hb | ⟨hk, hl⟩
  · simp only [hb, Obs.dropUpTo]
  · obtain ⟨y0, hy0⟩ := List.length_eq_one_iff.1 hl
    simp only [hy0, Obs.dropUpTo, hk, le_refl, if_true]

theorem inv_pushState {x : DVec} {k : Kin} (h : Inv nc ni o) (e : pushState { o with stateKin := k, x := x } = .ok o') : Inv nc ni o' := by
  simp only [pushState, Res.bind_eq_ok] at e
  obtain ⟨e1, h1, h2⟩ := e
  cases h2
  obtain ⟨hk, hv⟩ := ekf_setState h.2.ekf.n h.2.ekf.nt h.2.ekf.p h.2.ekf.pr h.2.ekf.q h.2.ekf.xbar h.2.ekf.ybar h.2.ekf.y h1
  exact ⟨h.1, { h.2 with ekf := hk, xSize := hv }⟩

theorem inv_pushState' {x : DVec} (h : Inv nc ni o) (e : pushState { o with x := x } = .ok o') : Inv nc ni o' :=
  inv_pushState (k := o.stateKin) h e

theorem inv_updateKine (h : Inv nc ni o) (e : o.updateKine = .ok o') : Inv nc ni o' := by
  simp only [updateKine, Res.bind_eq_ok] at e
  obtain ⟨s, -, k, -, h2⟩ := e
  cases h2
  exact h

theorem inv_start (h : Inv nc ni o) : Inv nc ni o.startNewIteration := by
  unfold startNewIteration
  split_ifs with hk
  · refine ⟨h.1, { h.2 with
      time := Or.inr (by have := h.2.time; dsimp only; omega), imuTime := fun m hm => ?_, conTime := fun m hm => ?_, absTime := ?_ }⟩
    · have := h.2.imuTime m hm; dsimp only; omega
    · have := h.2.conTime m hm; dsimp only; omega
    · have := h.2.absTime; dsimp only; omega
  · exact h

theorem start_maxIMU : o.startNewIteration.maxIMU = o.maxIMU := by unfold startNewIteration; split_ifs <;> rfl
theorem start_maxContacts : o.startNewIteration.maxContacts = o.maxContacts := by unfold startNewIteration; split_ifs <;> rfl
theorem start_imus : o.startNewIteration.imus = o.imus := by unfold startNewIteration; split_ifs <;> rfl
theorem start_contacts : o.startNewIteration.contacts = o.contacts := by unfold startNewIteration; split_ifs <;> rfl
theorem start_ekf : o.startNewIteration.ekf = o.ekf := by unfold startNewIteration; split_ifs <;> rfl
theorem start_x : o.startNewIteration.x = o.x := by unfold startNewIteration; split_ifs <;> rfl
theorem start_kEst : o.startNewIteration.kEst = o.kEst := by unfold startNewIteration; split_ifs <;> rfl
theorem start_abs : o.startNewIteration.abs = o.abs := by unfold startNewIteration; split_ifs <;> rfl

theorem inv_setAbs (h : Inv nc ni o) (a : AbsPose) (ha : a.time ≤ o.kData) : Inv nc ni { o with abs := a } := ⟨h.1, { h.2 with absTime := ha }⟩

theorem inv_setImu (h : Inv nc ni o) (n : ℕ) (m : IMU) (hm : m.time ≤ o.kData) (c : Int) :
    Inv nc ni { o with imus := o.imus.set n m, nIMU := c } := by
  refine ⟨h.1, { h.2 with imuLen := ?_, imuTime := fun m' hm' => ?_ }⟩
  · simpa using h.2.imuLen
  · rcases List.mem_or_eq_of_mem_set hm' with h1 | rfl
    · exact h.2.imuTime m' h1
    · exact hm

theorem inv_setContact (h : Inv nc ni o) (n : ℕ) (c c' : Contact) (hc : o.contacts[n]? = some c) (ht : c'.time ≤ o.kData)
    (hi : c'.isSet = true → c'.stateIndex = ((19 + ni * 3 + n * 13 : ℕ) : Int) ∧ c'.stateIndexTangent = ((18 + ni * 3 + n * 12 : ℕ) : Int) ∧
      c'.visco.isSome = true)
    (hs : c'.withRealSensor = true → c'.isSet = true) (r : Int) :
    Inv nc ni { o with contacts := o.contacts.set n c', nReal := r } := by
  refine ⟨h.1, { h.2 with conLen := ?_, conIdx := fun i d hd => ?_, conSensor := fun d hd => ?_, conTime := fun d hd => ?_ }⟩
  · rcases h.2.conLen with h1 | h1
    · left; simpa using h1
    · rw [h1] at hc; simp at hc
  · simp only [List.getElem?_set] at hd
    split_ifs at hd with h1 h2
    · subst h1; cases hd; exact hi
    · exact h.2.conIdx i d hd
  · rcases List.mem_or_eq_of_mem_set hd with h1 | rfl
    · exact h.2.conSensor d h1
    · exact hs
  · rcases List.mem_or_eq_of_mem_set hd with h1 | rfl
    · exact h.2.conTime d h1
    · exact ht

end Observer
end KO
end StateObs
