import Verif.KO.Fresh
import Verif.Kalman.Singular
/-!
# The measurement vector and its covariance
-/

namespace StateObs.KO
open StateObs Matrix Rot Kine KF Observer

/-- The first entries of the vector have been written, with `l`, and no other. -/
def Buf.Holds (b : Buf) (l : List ℝ) : Prop := l.length ≤ b.size ∧ ∀ j : Fin b.size, b.val j = l[j.1]?

theorem Buf.Holds.new (n : ℕ) : (Buf.new n).Holds [] := ⟨Nat.zero_le _, fun j => by simp [Buf.new]⟩

theorem Buf.Holds.setSeg {b b' : Buf} {l : List ℝ} {n : ℕ} {w : Fin n → ℝ} (h : b.Holds l) (hs : b.setSeg n l.length w = .ok b') :
    b'.Holds (l ++ List.ofFn w) ∧ b'.size = b.size := by
  unfold Buf.setSeg at hs
  split_ifs at hs with hn
  cases hs
  refine ⟨⟨by simpa using hn, fun j => ?_⟩, rfl⟩
  dsimp only
  split_ifs with hj
  · rw [List.getElem?_append_right hj.1, List.getElem?_eq_getElem (by simp; omega)]
    simp
  · rw [h.2 j]
    push Not at hj
    by_cases h1 : l.length ≤ j.1
    · have h2 := hj h1
      rw [List.getElem?_eq_none h1, List.getElem?_eq_none (by simp; omega)]
    · rw [List.getElem?_append_left (by omega)]

theorem Buf.Holds.setList {b b' : Buf} {l w : List ℝ} {n : ℕ} (h : b.Holds l) (hs : b.setList n l.length w = .ok b') :
    b'.Holds (l ++ w) ∧ b'.size = b.size ∧ w.length = n := by
  unfold Buf.setList at hs
  split_ifs at hs with hn
  have := h.setSeg hs
  subst hn
  refine ⟨?_, this.2, rfl⟩
  have e : List.ofFn (fun j : Fin w.length => w.get (Fin.cast rfl j)) = w := by simp
  rw [← e]
  exact this.1

theorem Buf.Holds.done {b : Buf} {l : List ℝ} {y : DVec} (h : b.Holds l) (hd : b.done = .ok y) : l.length = b.size ∧ y.size = b.size ∧ List.ofFn y.val = l := by
  unfold Buf.done at hd
  split_ifs at hd with ha
  cases hd
  have hl : l.length = b.size := by
    by_contra hc
    have h1 := h.1
    have := ha ⟨l.length, by omega⟩
    rw [h.2] at this
    simp at this
  refine ⟨hl, rfl, ?_⟩
  apply List.ext_getElem
  · simp [hl]
  · intro i h1 h2
    simp only [List.getElem_ofFn]
    rw [h.2]
    simp [h2]

theorem Buf.Holds.isDone {b : Buf} {l : List ℝ} (h : b.Holds l) (hl : l.length = b.size) : ∃ y, b.done = .ok y := by
  unfold Buf.done
  rw [if_pos]
  · exact ⟨_, rfl⟩
  · intro j
    rw [h.2 j, List.getElem?_eq_getElem (by omega)]
    rfl

/-- The entries of a block diagonal matrix, zero beyond the blocks. -/
def blockDiag : List (Σ n, Matrix (Fin n) (Fin n) ℝ) → ℕ → ℕ → ℝ
  | [], _, _ => 0
  | B :: l, r, c =>
    if h : r < B.1 ∧ c < B.1 then B.2 ⟨r, h.1⟩ ⟨c, h.2⟩ else if B.1 ≤ r ∧ B.1 ≤ c then blockDiag l (r - B.1) (c - B.1) else 0

/-- The number of rows of the blocks. -/
def blockRows (l : List (Σ n, Matrix (Fin n) (Fin n) ℝ)) : ℕ := (l.map (·.1)).sum

theorem blockDiag_out : ∀ (l : List (Σ n, Matrix (Fin n) (Fin n) ℝ)) (r c : ℕ), blockRows l ≤ r ∨ blockRows l ≤ c → blockDiag l r c = 0
  | [], _, _, _ => rfl
  | B :: l, r, c, h => by
    have hs : blockRows (B :: l) = B.1 + blockRows l := by simp [blockRows]
    rw [hs] at h
    rw [blockDiag, dif_neg (by omega)]
    split_ifs with h2
    · exact blockDiag_out l _ _ (by omega)
    · rfl

theorem blockDiag_append : ∀ (l : List (Σ n, Matrix (Fin n) (Fin n) ℝ)) (B : Σ n, Matrix (Fin n) (Fin n) ℝ) (r c : ℕ),
    blockDiag (l ++ [B]) r c = if h : (blockRows l ≤ r ∧ r < blockRows l + B.1) ∧ (blockRows l ≤ c ∧ c < blockRows l + B.1) then
      B.2 ⟨r - blockRows l, by omega⟩ ⟨c - blockRows l, by omega⟩ else blockDiag l r c
  | [], B, r, c => by simp [blockDiag, blockRows]
  | A :: l, B, r, c => by
    have hs : blockRows (A :: l) = A.1 + blockRows l := by simp [blockRows]
    simp only [List.cons_append, blockDiag, blockDiag_append l, hs]
    by_cases h1 : r < A.1 ∧ c < A.1
    · rw [dif_pos h1, dif_neg (by omega), dif_pos h1]
    · rw [dif_neg h1, dif_neg h1]
      by_cases h2 : A.1 ≤ r ∧ A.1 ≤ c
      · rw [if_pos h2, if_pos h2]
        by_cases h3 : (blockRows l ≤ r - A.1 ∧ r - A.1 < blockRows l + B.1) ∧ (blockRows l ≤ c - A.1 ∧ c - A.1 < blockRows l + B.1)
        · rw [dif_pos h3, dif_pos (by omega)]
          have a1 : r - A.1 - blockRows l = r - (A.1 + blockRows l) := by omega
          have a2 : c - A.1 - blockRows l = c - (A.1 + blockRows l) := by omega
          simp only [a1, a2]
        · rw [dif_neg h3, dif_neg (by omega)]
      · rw [if_neg h2, if_neg h2, dif_neg (by omega)]

/-- The matrix is the block diagonal matrix, completed by zeros. -/
def CovHolds (M : DMat) (N : ℕ) (bl : List (Σ n, Matrix (Fin n) (Fin n) ℝ)) : Prop :=
  blockRows bl ≤ N ∧ M = ⟨N, N, fun r c => blockDiag bl r c⟩

theorem CovHolds.zero (n : ℕ) : CovHolds (DMat.zero n n) n [] := ⟨Nat.zero_le _, rfl⟩

theorem CovHolds.setBlock {M M' : DMat} {N : ℕ} {bl : List (Σ n, Matrix (Fin n) (Fin n) ℝ)} {n : ℕ} {B : Matrix (Fin n) (Fin n) ℝ} {i : ℕ}
    (h : CovHolds M N bl) (hi : i = blockRows bl) (hs : M.setBlock n i i (dm B) = .ok M') : CovHolds M' N (bl ++ [⟨n, B⟩]) := by
  subst hi
  obtain ⟨h1, rfl⟩ := h
  unfold DMat.setBlock at hs
  split_ifs at hs with h2 h3
  cases hs
  refine ⟨by simp [blockRows] at *; exact h2, ?_⟩
  congr 1
  funext r c
  rw [blockDiag_append]
  rfl

theorem CovHolds.psd {M : DMat} {N : ℕ} {bl : List (Σ n, Matrix (Fin n) (Fin n) ℝ)} (h : CovHolds M N bl) (hb : ∀ B ∈ bl, B.2.PosSemidef) : IsPSD M := by
  obtain ⟨h1, rfl⟩ := h
  refine isPSD_mk.2 ?_
  induction bl using List.reverseRecOn with
  | nil => exact Matrix.PosSemidef.zero
  | append_singleton l B ih =>
    have hl : blockRows (l ++ [B]) = blockRows l + B.1 := by simp [blockRows]
    rw [hl] at h1
    have ih' := ih (fun B hB => hb B (by simp [hB])) (by omega)
    refine Replaced.psd (i := blockRows l) (B := B.2) (P := fun r c : Fin N => blockDiag l r c) ⟨h1, ?_, ?_, ?_, ?_⟩ ih' (hb B (by simp))
    · intro r c
      show blockDiag (l ++ [B]) _ _ = _
      rw [blockDiag_append, dif_pos (by constructor <;> constructor <;> dsimp only <;> omega)]
      simp only [Nat.add_sub_cancel_left]
    · intro r c hr hc
      show blockDiag (l ++ [B]) _ _ = _
      unfold InSeg at *
      rw [blockDiag_append, dif_neg (fun h => hc h.2), blockDiag_out _ _ _ (Or.inl hr.1)]
    · intro r c hr hc
      show blockDiag (l ++ [B]) _ _ = _
      unfold InSeg at *
      rw [blockDiag_append, dif_neg (fun h => hr h.1), blockDiag_out _ _ _ (Or.inr hc.1)]
    · intro r c hr hc
      show blockDiag (l ++ [B]) _ _ = _
      unfold InSeg at *
      rw [blockDiag_append, dif_neg (fun h => hr h.1)]

/-! ## What the observer has to send to the filter -/

/-- The signal of an IMU that has one at the time `k`. -/
def IMU.signals (k : Int) (m : IMU) : List ℝ := if m.time = k then (m.signal.map List.ofFn).getD [] else []
/-- The covariances of the accelerometer and of the gyrometer. -/
def IMU.blocks (k : Int) (m : IMU) : List (Σ n, Matrix (Fin n) (Fin n) ℝ) :=
  if m.time = k then (m.covAcc.map fun A => (⟨3, A⟩ : Σ n, Matrix (Fin n) (Fin n) ℝ)).toList ++ (m.covGyro.map fun A => (⟨3, A⟩ : Σ n, Matrix (Fin n) (Fin n) ℝ)).toList else []
/-- The signal of a contact with a wrench sensor. -/
def Contact.signals (c : Contact) : List ℝ := if c.withRealSensor then (c.wrench.map List.ofFn).getD [] else []
/-- The covariance of the wrench sensor of a contact. -/
def Contact.blocks (c : Contact) : List (Σ n, Matrix (Fin n) (Fin n) ℝ) :=
  if c.withRealSensor then match c.sensorCov.read dbg with | .ok M => [⟨6, M⟩] | _ => [] else []

/-- State of the construction: the vector holds `l`, the covariance `bl`; both are complete up to the current index. -/
structure PackOk (p : Pack) (ny nt : ℕ) (l : List ℝ) (bl : List (Σ n, Matrix (Fin n) (Fin n) ℝ)) : Prop where
  y : p.y.Holds l
  size : p.y.size = ny
  cov : CovHolds p.cov nt bl
  cur : p.cur = l.length
  rows : p.cur = blockRows bl

theorem packIMUs_holds {k : Int} : ∀ {L : List IMU} {p : Pack} {r : List IMU × Pack} {ny nt : ℕ} {l bl}, PackOk p ny nt l bl → packIMUs k L p = .ok r →
    PackOk r.2 ny nt (l ++ L.flatMap (IMU.signals k)) (bl ++ L.flatMap (IMU.blocks k)) ∧
    (L.flatMap (IMU.signals k)).length = 6 * L.countP (fun m => decide (m.time = k))
  | [], p, r, ny, nt, l, bl, hp, h => by cases h; simpa using hp
  | m :: L, p, r, ny, nt, l, bl, hp, h => by
    unfold packIMUs at h
    split_ifs at h with ht
    · simp only [Res.bind_eq_ok] at h
      obtain ⟨s, h1, y, h2, ca, h3, cov, h4, cg, h5, cov', h6, r', h7, h8⟩ := h
      cases h8
      rw [hp.cur] at h2
      obtain ⟨hy, hz⟩ := hp.y.setSeg h2
      have c1 := hp.cov.setBlock hp.rows h4
      have c2 := c1.setBlock (by rw [hp.rows]; simp [blockRows]) h6
      have hm : PackOk ⟨y, cov', p.cur + 3 + 3⟩ ny nt (l ++ List.ofFn s) (bl ++ [⟨3, ca⟩] ++ [⟨3, cg⟩]) :=
        ⟨hy, hz.trans hp.size, c2, by simp [hp.cur], by simp [hp.rows, blockRows]⟩
      obtain ⟨g1, g2⟩ := packIMUs_holds hm h7
      have e1 : IMU.signals k m = List.ofFn s := by simp [IMU.signals, ht, Observer.rd_ok h1]
      have e2 : IMU.blocks k m = [⟨3, ca⟩, ⟨3, cg⟩] := by simp [IMU.blocks, ht, Observer.rd_ok h3, Observer.rd_ok h5]
      refine ⟨?_, ?_⟩
      · rw [List.flatMap_cons, List.flatMap_cons, e1, e2]
        simpa [List.append_assoc] using g1
      · rw [List.flatMap_cons, List.length_append, g2, e1, List.countP_cons_of_pos (by simp [ht])]
        simp; omega
    · simp only [Res.bind_eq_ok] at h
      obtain ⟨r', h7, h8⟩ := h
      cases h8
      obtain ⟨g1, g2⟩ := packIMUs_holds hp h7
      have e1 : IMU.signals k m = [] := by simp [IMU.signals, ht]
      have e2 : IMU.blocks k m = [] := by simp [IMU.blocks, ht]
      refine ⟨?_, ?_⟩
      · rw [List.flatMap_cons, List.flatMap_cons, e1, e2]
        simpa using g1
      · rw [List.flatMap_cons, List.length_append, g2, e1, List.countP_cons_of_neg (by simp [ht])]
        simp

theorem packContacts_holds : ∀ {L : List Contact} {p : Pack} {r : List Contact × Pack} {ny nt : ℕ} {l bl}, PackOk p ny nt l bl → packContacts L p = .ok r →
    PackOk r.2 ny nt (l ++ L.flatMap Contact.signals) (bl ++ L.flatMap Contact.blocks) ∧
    (L.flatMap Contact.signals).length = 6 * L.countP (fun m => m.withRealSensor)
  | [], p, r, ny, nt, l, bl, hp, h => by cases h; simpa using hp
  | m :: L, p, r, ny, nt, l, bl, hp, h => by
    unfold packContacts at h
    split_ifs at h with ht
    · simp only [Res.bind_eq_ok] at h
      obtain ⟨s, h1, y, h2, M, h3, cov, h4, r', h7, h8⟩ := h
      cases h8
      rw [hp.cur] at h2
      obtain ⟨hy, hz⟩ := hp.y.setSeg h2
      have c1 := hp.cov.setBlock hp.rows h4
      have hm : PackOk ⟨y, cov, p.cur + 6⟩ ny nt (l ++ List.ofFn s) (bl ++ [⟨6, M⟩]) :=
        ⟨hy, hz.trans hp.size, c1, by simp [hp.cur], by simp [hp.rows, blockRows]⟩
      obtain ⟨g1, g2⟩ := packContacts_holds hm h7
      have e1 : Contact.signals m = List.ofFn s := by simp [Contact.signals, ht, Observer.rd_ok h1]
      have e2 : Contact.blocks m = [⟨6, M⟩] := by simp [Contact.blocks, ht, h3]
      refine ⟨?_, ?_⟩
      · rw [List.flatMap_cons, List.flatMap_cons, e1, e2]
        simpa [List.append_assoc] using g1
      · rw [List.flatMap_cons, List.length_append, g2, e1, List.countP_cons_of_pos (by simp [ht])]
        simp; omega
    · simp only [Res.bind_eq_ok] at h
      obtain ⟨r', h7, h8⟩ := h
      cases h8
      obtain ⟨g1, g2⟩ := packContacts_holds hp h7
      have e1 : Contact.signals m = [] := by simp [Contact.signals, ht]
      have e2 : Contact.blocks m = [] := by simp [Contact.blocks, ht]
      refine ⟨?_, ?_⟩
      · rw [List.flatMap_cons, List.flatMap_cons, e1, e2]
        simpa using g1
      · rw [List.flatMap_cons, List.length_append, g2, e1, List.countP_cons_of_neg (by simp [ht])]
        simp

variable {nc ni : ℕ} {o o' : Observer}

/-- The signal of the absolute pose sensor: position and quaternion. -/
noncomputable def poseSignals (o : Observer) : List ℝ :=
  if o.abs.time = o.kData then match o.abs.pose.toVector flagsPoseKine with | .ok r => r.1 | _ => [] else []
/-- Its covariance. -/
def poseBlocks (o : Observer) : List (Σ n, Matrix (Fin n) (Fin n) ℝ) :=
  if o.abs.time = o.kData then match o.abs.cov.read dbg with | .ok M => [⟨6, M⟩] | _ => [] else []

/-- What `update()` gives to the filter. -/
theorem buildMeasurement_holds {y : DVec} {cov : DMat} (h : o.buildMeasurement = .ok (o', y, cov)) :
    List.ofFn y.val = o.imus.flatMap (IMU.signals o.kData) ++ o.contacts.flatMap Contact.signals ++ poseSignals o ∧
    CovHolds cov o'.measTangentSize (o.imus.flatMap (IMU.blocks o.kData) ++ o.contacts.flatMap Contact.blocks ++ poseBlocks o) ∧
    y.size = o'.measSize ∧
    o'.measSize = 6 * o.imus.countP (fun m => decide (m.time = o.kData)) + 6 * o.contacts.countP (fun m => m.withRealSensor) + (if o.abs.time = o.kData then 7 else 0) ∧
    (o'.measSize : Int) = 6 * o.nIMU + 6 * o.nReal + (if o.abs.time = o.kData then 7 else 0) ∧
    (o'.measTangentSize : Int) = 6 * o.nIMU + 6 * o.nReal + (if o.abs.time = o.kData then 6 else 0) := by
  simp only [Observer.buildMeasurement, Res.bind_eq_ok] at h
  obtain ⟨_, -, n, hn, i, h1, c, h2, a, h3, y', hy, h4⟩ := h
  cases h4
  obtain ⟨g1, g2⟩ := packIMUs_holds (l := []) (bl := []) ⟨Buf.Holds.new n.1, rfl, CovHolds.zero n.2, rfl, rfl⟩ h1
  obtain ⟨g3, g4⟩ := packContacts_holds g1 h2
  have hp : a.2.y.Holds (o.imus.flatMap (IMU.signals o.kData) ++ o.contacts.flatMap Contact.signals ++ poseSignals o) ∧ a.2.y.size = n.1 ∧
      CovHolds a.2.cov n.2 (o.imus.flatMap (IMU.blocks o.kData) ++ o.contacts.flatMap Contact.blocks ++ poseBlocks o) ∧
      (poseSignals o).length = (if o.abs.time = o.kData then 7 else 0) := by
    unfold Observer.packPose at h3
    split_ifs at h3 with ht
    · simp only [Res.bind_eq_ok] at h3
      obtain ⟨_, -, r, hr, y1, hy1, M, hM, cv, hcv, e⟩ := h3
      cases e
      rw [g3.cur] at hy1
      obtain ⟨q1, q2, q3⟩ := g3.y.setList hy1
      have c1 := g3.cov.setBlock g3.rows hcv
      have e1 : poseSignals o = r.1 := by simp [poseSignals, ht, hr]
      have e2 : poseBlocks o = [⟨6, M⟩] := by simp [poseBlocks, ht, hM]
      rw [e1, e2]
      refine ⟨by simpa using q1, q2.trans g3.size, by simpa using c1, by simp [ht, q3]⟩
    · cases h3
      have e1 : poseSignals o = [] := by simp [poseSignals, ht]
      have e2 : poseBlocks o = [] := by simp [poseBlocks, ht]
      rw [e1, e2]
      refine ⟨by simpa using g3.y, g3.size, by simpa using g3.cov, by simp [ht]⟩
  obtain ⟨p1, p2, p3, p4⟩ := hp
  obtain ⟨d1, d2, d3⟩ := p1.done hy
  refine ⟨d3, p3, d2.trans p2, ?_, ?_, ?_⟩
  · rw [← p2, ← d1, List.length_append, List.length_append, g2, g4, p4]
  · unfold Observer.measurementSizes at hn
    split_ifs at hn with hneg hab
    · cases hn; simp only [hab, if_true]; push_cast; omega
    · cases hn; simp only [hab, if_false]; omega
  · unfold Observer.measurementSizes at hn
    split_ifs at hn with hneg hab
    · cases hn; simp only [hab, if_true]; push_cast; omega
    · cases hn; simp only [hab, if_false]; omega

end StateObs.KO
