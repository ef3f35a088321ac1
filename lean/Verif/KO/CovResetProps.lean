import Verif.KO.CovProps
/-!
# C54: the resets of the whole covariance, the constructor, and the setters that write elsewhere
-/

namespace StateObs.KO
open StateObs Matrix Rot Kine KF

variable {nc ni : ℕ} {o o' : Observer}

theorem fold_state {f : Observer → ℕ → Res Observer} {b : ℕ → List Block} (l : List ℕ) (o : Observer)
    (hf : ∀ o1 a, a ∈ l → (∃ bl, StateCov o o1 bl) → ∃ o2, f o1 a = .ok o2 ∧ StateCov o1 o2 (b a)) :
    ∀ (o1 : Observer) (bl : List Block), StateCov o o1 bl → ∃ o', l.foldlM f o1 = .ok o' ∧ StateCov o o' (bl ++ l.flatMap b) := by
  induction l with
  | nil => exact fun o1 bl h => ⟨o1, rfl, by simpa using h⟩
  | cons a l ih =>
    intro o1 bl h
    obtain ⟨o2, h1, h2⟩ := hf o1 a List.mem_cons_self ⟨bl, h⟩
    obtain ⟨o', h3, h4⟩ := ih (fun o1 a ha => hf o1 a (List.mem_cons_of_mem _ ha)) o2 (bl ++ b a) (h.append h2)
    refine ⟨o', ?_, by simpa using h4⟩
    rw [List.foldlM_cons, h1, Res.ok_bind]
    exact h3

theorem fold_process {f : Observer → ℕ → Res Observer} {b : ℕ → List Block} (l : List ℕ) (o : Observer)
    (hf : ∀ o1 a, a ∈ l → (∃ bl, ProcessCov o o1 bl) → ∃ o2, f o1 a = .ok o2 ∧ ProcessCov o1 o2 (b a)) :
    ∀ (o1 : Observer) (bl : List Block), ProcessCov o o1 bl → ∃ o', l.foldlM f o1 = .ok o' ∧ ProcessCov o o' (bl ++ l.flatMap b) := by
  induction l with
  | nil => exact fun o1 bl h => ⟨o1, rfl, by simpa using h⟩
  | cons a l ih =>
    intro o1 bl h
    obtain ⟨o2, h1, h2⟩ := hf o1 a List.mem_cons_self ⟨bl, h⟩
    obtain ⟨o', h3, h4⟩ := ih (fun o1 a ha => hf o1 a (List.mem_cons_of_mem _ ha)) o2 (bl ++ b a) (h.append h2)
    refine ⟨o', ?_, by simpa using h4⟩
    rw [List.foldlM_cons, h1, Res.ok_bind]
    exact h3

/-- What the sequence of replacements leaves: a block that no later block touches has its value, the rows and columns of a block that is not touched later are
otherwise zero. -/
theorem ReplacedAll.last {N : ℕ} {P P' : Matrix (Fin N) (Fin N) ℝ} {l1 l2 : List Block} {b : Block} (h : ReplacedAll P (l1 ++ b :: l2) P')
    (hd : ∀ c ∈ l2, c.start + c.size ≤ b.start ∨ b.start + b.size ≤ c.start) :
    ∃ hr : b.start + b.size ≤ N,
      (∀ r c : Fin b.size, P' ⟨b.start + r, by omega⟩ ⟨b.start + c, by omega⟩ = b.val r c) ∧
      (∀ r c : Fin N, InSeg b.start b.size r → ¬ InSeg b.start b.size c → P' r c = 0) ∧
      (∀ r c : Fin N, ¬ InSeg b.start b.size r → InSeg b.start b.size c → P' r c = 0) := by
  induction l1 generalizing P with
  | cons a l1 ih => cases h with | cons h1 h2 => exact ih h2
  | nil =>
    cases h with
    | @cons _ P1 _ _ _ h1 h2 =>
      -- the property is kept by the following replacements
      have key : ∀ (l2 : List Block) (P1 P' : Matrix (Fin N) (Fin N) ℝ), ReplacedAll P1 l2 P' →
          (∀ c ∈ l2, c.start + c.size ≤ b.start ∨ b.start + b.size ≤ c.start) →
          ∀ r c : Fin N, (InSeg b.start b.size r ∧ InSeg b.start b.size c → P' r c = P1 r c) ∧
            (InSeg b.start b.size r ∧ ¬ InSeg b.start b.size c → P1 r c = 0 → P' r c = 0) ∧
            (¬ InSeg b.start b.size r ∧ InSeg b.start b.size c → P1 r c = 0 → P' r c = 0) := by
        intro l2
        induction l2 with
        | nil => intro P1 P' h _ r c; cases h; exact ⟨fun _ => rfl, fun _ h => h, fun _ h => h⟩
        | cons d l2 ih =>
          intro P1 P' h hd r c
          cases h with
          | @cons _ P2 _ _ _ h1 h2 =>
            have hd1 := hd d List.mem_cons_self
            have := ih P2 P' h2 (fun c hc => hd c (List.mem_cons_of_mem _ hc)) r c
            have hout : ∀ s : Fin N, InSeg b.start b.size s → ¬ InSeg d.start d.size s := by
              intro s hs; unfold InSeg at *; omega
            refine ⟨fun hh => ?_, fun hh h0 => ?_, fun hh h0 => ?_⟩
            · rw [this.1 hh, h1.outside r c (hout r hh.1) (hout c hh.2)]
            · refine this.2.1 hh ?_
              by_cases hc : InSeg d.start d.size c
              · exact h1.left r c (hout r hh.1) hc
              · rw [h1.outside r c (hout r hh.1) hc, h0]
            · refine this.2.2 hh ?_
              by_cases hc : InSeg d.start d.size r
              · exact h1.right r c hc (hout c hh.2)
              · rw [h1.outside r c hc (hout c hh.2), h0]
      have hk := key l2 P1 P' h2 hd
      refine ⟨h1.range, fun r c => ?_, fun r c hr hc => ?_, fun r c hr hc => ?_⟩
      · rw [(hk _ _).1 ⟨⟨by simp, by simp⟩, ⟨by simp, by simp⟩⟩]
        exact h1.inside r c
      · exact (hk r c).2.1 ⟨hr, hc⟩ (h1.right r c hr hc)
      · exact (hk r c).2.2 ⟨hr, hc⟩ (h1.left r c hr hc)

/-- The blocks of the covariance for the IMUs with a measurement at the data time. -/
def gyroBlocks (o : Observer) (ni : ℕ) (B : M3) (p : IMU → Bool) : List Block :=
  (List.range ni).flatMap fun i => if (o.imus[i]?.map p).getD false then [⟨offT ni (.gyroBias i), 3, B⟩] else []

/-- The blocks for the contacts that are set. -/
def contactBlocks (o : Observer) (ni : ℕ) (B : M12) : List Block :=
  (List.range o.contacts.length).flatMap fun n => if (o.contacts[n]?.map (·.isSet)).getD false then [⟨offT ni (.contactPosition n), 12, B⟩] else []

theorem StateCov.fields {bl : List Block} (h : StateCov o o' bl) :
    o'.contacts = o.contacts ∧ o'.imus = o.imus ∧ o'.kData = o.kData ∧ o'.gyroBiasInit = o.gyroBiasInit ∧ o'.contactInit = o.contactInit ∧
    o'.unmodeledInit = o.unmodeledInit ∧ o'.kineInit = o.kineInit ∧ o'.ekf.st.q = o.ekf.st.q := by
  obtain ⟨P, P', -, rfl, -⟩ := h
  exact ⟨rfl, rfl, rfl, rfl, rfl, rfl, rfl, rfl⟩

theorem ProcessCov.fields {bl : List Block} (h : ProcessCov o o' bl) :
    o'.contacts = o.contacts ∧ o'.imus = o.imus ∧ o'.kData = o.kData ∧ o'.gyroBiasProc = o.gyroBiasProc ∧ o'.contactProc = o.contactProc ∧
    o'.unmodeledProc = o.unmodeledProc ∧ o'.kineProc = o.kineProc ∧ o'.ekf.st.pr = o.ekf.st.pr := by
  obtain ⟨P, P', -, rfl, -⟩ := h
  exact ⟨rfl, rfl, rfl, rfl, rfl, rfl, rfl, rfl⟩

theorem Sets.elim {f : Res Observer} {c : Comp} {n : ℕ} {B : Matrix (Fin n) (Fin n) ℝ} (hi : Inv nc ni o) (h : Sets o f c n B) (he : Exists o ni c) :
    ∃ o', f = .ok o' ∧ StateCov o o' [⟨offT ni c, n, B⟩] := by
  obtain ⟨o', h1⟩ := h.2.2 ⟨_, (startTangent_eq hi c _).2 ⟨he, rfl⟩⟩
  obtain ⟨i, h2, h3⟩ := (h.1 o').1 h1
  obtain ⟨-, rfl⟩ := (startTangent_eq hi c _).1 h2
  exact ⟨o', h1, h3⟩

theorem SetsQ.elim {f : Res Observer} {c : Comp} {n : ℕ} {B : Matrix (Fin n) (Fin n) ℝ} (hi : Inv nc ni o) (h : SetsQ o f c n B) (he : Exists o ni c) :
    ∃ o', f = .ok o' ∧ ProcessCov o o' [⟨offT ni c, n, B⟩] := by
  obtain ⟨o', h1⟩ := h.2.2 ⟨_, (startTangent_eq hi c _).2 ⟨he, rfl⟩⟩
  obtain ⟨i, h2, h3⟩ := (h.1 o').1 h1
  obtain ⟨-, rfl⟩ := (startTangent_eq hi c _).1 h2
  exact ⟨o', h1, h3⟩

theorem resetStateContacts_all (hi : Inv nc ni o) : ∃ o', o.resetStateContactsCovMat = .ok o' ∧ StateCov o o' (contactBlocks o ni o.contactInit) := by
  refine fold_state (b := fun n => if (o.contacts[n]?.map (·.isSet)).getD false then [⟨offT ni (.contactPosition n), 12, o.contactInit⟩] else [])
    _ o (fun o1 a ha ⟨bl, hb⟩ => ?_) o [] (.refl hi)
  have hi1 := hb.inv hi
  obtain ⟨f1, -, -, -, f5, -⟩ := hb.fields
  have ha' : a < o.contacts.length := List.mem_range.1 ha
  simp only [Observer.resetStateContactIfSet, f1, List.getElem?_eq_getElem ha', rd, Res.ok_bind, Option.map_some, Option.getD_some]
  by_cases hs : (o.contacts[a]).isSet = true
  · simp only [hs, if_true]
    rw [← f5]
    exact (sets_contact hi1 a).elim hi1 ⟨_, by rw [f1]; exact List.getElem?_eq_getElem ha', hs⟩
  · simp only [hs]
    exact ⟨o1, rfl, .refl hi1⟩

theorem resetProcessContacts_all (hi : Inv nc ni o) : ∃ o', o.resetProcessContactsCovMat = .ok o' ∧ ProcessCov o o' (contactBlocks o ni o.contactProc) := by
  refine fold_process (b := fun n => if (o.contacts[n]?.map (·.isSet)).getD false then [⟨offT ni (.contactPosition n), 12, o.contactProc⟩] else [])
    _ o (fun o1 a ha ⟨bl, hb⟩ => ?_) o [] (.refl hi)
  have hi1 := hb.inv hi
  obtain ⟨f1, -, -, -, f5, -⟩ := hb.fields
  have ha' : a < o.contacts.length := List.mem_range.1 ha
  simp only [Observer.resetProcessContactIfSet, f1, List.getElem?_eq_getElem ha', rd, Res.ok_bind, Option.map_some, Option.getD_some]
  by_cases hs : (o.contacts[a]).isSet = true
  · simp only [hs, if_true]
    rw [← f5]
    exact (setsQ_contact hi1 a).elim hi1 ⟨_, by rw [f1]; exact List.getElem?_eq_getElem ha', hs⟩
  · simp only [hs]
    exact ⟨o1, rfl, .refl hi1⟩

theorem resetStateGyros_all (hi : Inv nc ni o) : ∃ o', (List.range o.imus.length).foldlM Observer.resetStateGyroBiasIfTime o = .ok o' ∧
    StateCov o o' (gyroBlocks o ni o.gyroBiasInit fun m => decide (m.time = o.kData)) := by
  rw [gyroBlocks, ← hi.2.imuLen]
  refine fold_state (b := fun i => if (o.imus[i]?.map fun m => decide (m.time = o.kData)).getD false then
    [⟨offT o.imus.length (.gyroBias i), 3, o.gyroBiasInit⟩] else []) _ o (fun o1 a ha ⟨bl, hb⟩ => ?_) o [] (.refl hi)
  have hi1 := hb.inv hi
  obtain ⟨-, f2, f3, f4, -⟩ := hb.fields
  have ha' : a < o.imus.length := List.mem_range.1 ha
  simp only [Observer.resetStateGyroBiasIfTime, f2, f3, List.getElem?_eq_getElem ha', rd, Res.ok_bind, Option.map_some, Option.getD_some, decide_eq_true_eq]
  by_cases hs : (o.imus[a]).time = o.kData
  · simp only [hs, if_true]
    rw [← f4, hi.2.imuLen]
    exact (sets_comp hi1 (.gyroBias a) (range_gyro a) _).elim hi1 (by rw [hi.2.imuLen] at ha'; exact ha')
  · simp only [hs]
    exact ⟨o1, rfl, .refl hi1⟩

theorem resetProcessGyros_all (hi : Inv nc ni o) : ∃ o', (List.range o.imus.length).foldlM Observer.resetProcessGyroBiasCovMat o = .ok o' ∧
    ProcessCov o o' (gyroBlocks o ni o.gyroBiasProc fun _ => true) := by
  rw [gyroBlocks, ← hi.2.imuLen]
  refine fold_process (b := fun i => if (o.imus[i]?.map fun _ => true).getD false then
    [⟨offT o.imus.length (.gyroBias i), 3, o.gyroBiasProc⟩] else []) _ o (fun o1 a ha ⟨bl, hb⟩ => ?_) o [] (.refl hi)
  have hi1 := hb.inv hi
  obtain ⟨-, -, -, f4, -⟩ := hb.fields
  have ha' : a < o.imus.length := List.mem_range.1 ha
  simp only [List.getElem?_eq_getElem ha', Option.map_some, Option.getD_some, if_true]
  rw [← f4, hi.2.imuLen]
  exact (setsQ_comp hi1 (.gyroBias a) (range_gyro a) _).elim hi1 (by rw [hi.2.imuLen] at ha'; exact ha')

theorem resetState_all (hi : Inv nc ni o) : ∃ o', o.resetStateCovarianceMat = .ok o' ∧
    StateCov o o' ([⟨0, 12, o.kineInit⟩] ++ gyroBlocks o ni o.gyroBiasInit (fun m => decide (m.time = o.kData)) ++
      [⟨12 + 3 * ni, 6, o.unmodeledInit⟩] ++ contactBlocks o ni o.contactInit) := by
  obtain ⟨o1, h1, c1⟩ := (sets_comp hi .position range_kine o.kineInit).elim hi trivial
  have i1 := c1.inv hi
  have f1 := c1.fields
  obtain ⟨o2, h2, c2⟩ := resetStateGyros_all i1
  have i2 := c2.inv i1
  have f2 := c2.fields
  obtain ⟨o3, h3, c3⟩ := (sets_comp i2 .unmodeledForce range_wrench o2.unmodeledInit).elim i2 trivial
  have i3 := c3.inv i2
  have f3 := c3.fields
  obtain ⟨o4, h4, c4⟩ := resetStateContacts_all i3
  refine ⟨o4, ?_, ?_⟩
  · show (o.resetStateKinematicsCovMat >>= _) = _
    have e1 : o.resetStateKinematicsCovMat = .ok o1 := h1
    have e3 : o2.resetStateUnmodeledWrenchCovMat = .ok o3 := h3
    rw [e1, Res.ok_bind, h2, Res.ok_bind, e3, Res.ok_bind, h4]
  · have := ((c1.append c2).append c3).append c4
    simp only [gyroBlocks, contactBlocks] at this ⊢
    rw [f3.1, f2.1, f1.1, f1.2.1, f1.2.2.1, f1.2.2.2.1, f3.2.2.2.2.1, f2.2.2.2.2.1, f1.2.2.2.2.1, f2.2.2.2.2.2.1, f1.2.2.2.2.2.1] at this
    exact this

theorem resetProcess_all (hi : Inv nc ni o) : ∃ o', o.resetProcessCovarianceMat = .ok o' ∧
    ProcessCov o o' ([⟨0, 12, o.kineProc⟩] ++ gyroBlocks o ni o.gyroBiasProc (fun _ => true) ++
      [⟨12 + 3 * ni, 6, o.unmodeledProc⟩] ++ contactBlocks o ni o.contactProc) := by
  obtain ⟨o1, h1, c1⟩ := (setsQ_comp hi .position range_kine o.kineProc).elim hi trivial
  have i1 := c1.inv hi
  have f1 := c1.fields
  obtain ⟨o2, h2, c2⟩ := resetProcessGyros_all i1
  have i2 := c2.inv i1
  have f2 := c2.fields
  obtain ⟨o3, h3, c3⟩ := (setsQ_comp i2 .unmodeledForce range_wrench o2.unmodeledProc).elim i2 trivial
  have i3 := c3.inv i2
  have f3 := c3.fields
  obtain ⟨o4, h4, c4⟩ := resetProcessContacts_all i3
  refine ⟨o4, ?_, ?_⟩
  · show (o.resetProcessKinematicsCovMat >>= _) = _
    have e1 : o.resetProcessKinematicsCovMat = .ok o1 := h1
    have e3 : o2.resetProcessUnmodeledWrenchCovMat = .ok o3 := h3
    rw [e1, Res.ok_bind, h2, Res.ok_bind, e3, Res.ok_bind, h4]
  · have := ((c1.append c2).append c3).append c4
    simp only [gyroBlocks, contactBlocks] at this ⊢
    rw [f3.1, f2.1, f1.1, f1.2.1, f1.2.2.2.1, f3.2.2.2.2.1, f2.2.2.2.2.1, f1.2.2.2.2.1, f2.2.2.2.2.2.1, f1.2.2.2.2.2.1] at this
    exact this

/-- **C54**: the resets of the whole matrices always return, and write the initial (process) covariance of the kinematics, of the gyrometer biases (for the
covariance of the state: of the IMUs that have a measurement at the data time, only), of the unmodeled wrench, and of all the contacts that are set. -/
theorem C54_resetAll {l : List Op} (h : Reachable nc ni l o) :
    (∃ o', o.resetStateCovarianceMat = .ok o' ∧
      StateCov o o' ([⟨0, 12, o.kineInit⟩] ++ gyroBlocks o ni o.gyroBiasInit (fun m => decide (m.time = o.kData)) ++
        [⟨12 + 3 * ni, 6, o.unmodeledInit⟩] ++ contactBlocks o ni o.contactInit)) ∧
    (∃ o', o.resetStateContactsCovMat = .ok o' ∧ StateCov o o' (contactBlocks o ni o.contactInit)) ∧
    (∃ o', o.resetProcessCovarianceMat = .ok o' ∧
      ProcessCov o o' ([⟨0, 12, o.kineProc⟩] ++ gyroBlocks o ni o.gyroBiasProc (fun _ => true) ++
        [⟨12 + 3 * ni, 6, o.unmodeledProc⟩] ++ contactBlocks o ni o.contactProc)) ∧
    (∃ o', o.resetProcessContactsCovMat = .ok o' ∧ ProcessCov o o' (contactBlocks o ni o.contactProc)) := by
  have hi := Observer.inv_reachable h
  exact ⟨resetState_all hi, resetStateContacts_all hi, resetProcess_all hi, resetProcessContacts_all hi⟩

end StateObs.KO
