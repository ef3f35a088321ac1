import Verif.KO.InvLemmas
/-!
# C53: the layout of the state vector and of the tangent vector
-/

namespace StateObs.KO
open StateObs Matrix Rot Kine KF

/-- The components of the state. -/
inductive Comp where
  | position | orientation | linVel | angVel
  | gyroBias (imu : ℕ)
  | unmodeledForce | unmodeledTorque
  | contactPosition (n : ℕ) | contactOrientation (n : ℕ) | contactForce (n : ℕ) | contactTorque (n : ℕ)
  deriving DecidableEq

namespace Comp

/-- Number of entries in the state vector: 4 for a quaternion, 3 otherwise. -/
def size : Comp → ℕ
  | orientation => 4
  | contactOrientation _ => 4
  | _ => 3

/-- Where the getters of the observer say that the component starts in the state vector. -/
def start (o : Observer) : Comp → Res ℕ
  | position => .ok Observer.posIndex
  | orientation => .ok Observer.oriIndex
  | linVel => .ok Observer.linVelIndex
  | angVel => .ok Observer.angVelIndex
  | gyroBias i => o.gyroBiasIndex i
  | unmodeledForce => o.unmodeledWrenchIndex
  | unmodeledTorque => o.unmodeledTorqueIndex
  | contactPosition n => o.contactIndex n
  | contactOrientation n => o.contactOriIndex n
  | contactForce n => o.contactWrenchIndex n
  | contactTorque n => o.contactTorqueIndex n

/-- Where they say that the component (3 entries each) starts in the tangent vector. -/
def startTangent (o : Observer) : Comp → Res ℕ
  | position => .ok Observer.posIndexTangent
  | orientation => .ok Observer.oriIndexTangent
  | linVel => .ok Observer.linVelIndexTangent
  | angVel => .ok Observer.angVelIndexTangent
  | gyroBias i => o.gyroBiasIndexTangent i
  | unmodeledForce => o.unmodeledWrenchIndexTangent
  | unmodeledTorque => o.unmodeledTorqueIndexTangent
  | contactPosition n => o.contactIndexTangent n
  | contactOrientation n => o.contactOriIndexTangent n
  | contactForce n => o.contactWrenchIndexTangent n
  | contactTorque n => o.contactTorqueIndexTangent n

/-- Components that exist: IMU numbers below `ni`, contact numbers below `nc`. -/
def Valid (nc ni : ℕ) : Comp → Prop
  | gyroBias i => i < ni
  | contactPosition n => n < nc
  | contactOrientation n => n < nc
  | contactForce n => n < nc
  | contactTorque n => n < nc
  | _ => True

end Comp

/-- The segments that start at `start c` and have `size c` entries are inside a vector of size `N` and disjoint. -/
def Separated (N : ℕ) (start : Comp → Res ℕ) (size : Comp → ℕ) : Prop :=
  (∀ c i, start c = .ok i → i + size c ≤ N) ∧
  ∀ c d i j, c ≠ d → start c = .ok i → start d = .ok j → i + size c ≤ j ∨ j + size d ≤ i

/-- Every entry of a vector of size `N` is in one of the segments. -/
def Covers (N : ℕ) (start : Comp → Res ℕ) (size : Comp → ℕ) : Prop :=
  ∀ k < N, ∃ c i, start c = .ok i ∧ i ≤ k ∧ k < i + size c

/-- The starts in terms of the maximal numbers. -/
def off (ni : ℕ) : Comp → ℕ
  | .position => 0
  | .orientation => 3
  | .linVel => 7
  | .angVel => 10
  | .gyroBias i => 13 + 3 * i
  | .unmodeledForce => 13 + 3 * ni
  | .unmodeledTorque => 16 + 3 * ni
  | .contactPosition n => 19 + 3 * ni + 13 * n
  | .contactOrientation n => 19 + 3 * ni + 13 * n + 3
  | .contactForce n => 19 + 3 * ni + 13 * n + 7
  | .contactTorque n => 19 + 3 * ni + 13 * n + 10

def offT (ni : ℕ) : Comp → ℕ
  | .position => 0
  | .orientation => 3
  | .linVel => 6
  | .angVel => 9
  | .gyroBias i => 12 + 3 * i
  | .unmodeledForce => 12 + 3 * ni
  | .unmodeledTorque => 15 + 3 * ni
  | .contactPosition n => 18 + 3 * ni + 12 * n
  | .contactOrientation n => 18 + 3 * ni + 12 * n + 3
  | .contactForce n => 18 + 3 * ni + 12 * n + 6
  | .contactTorque n => 18 + 3 * ni + 12 * n + 9

variable {nc ni : ℕ} {o : Observer}

/-- The contact `n` has been added. -/
def IsSet (o : Observer) (n : ℕ) : Prop := ∃ c, o.contacts[n]? = some c ∧ c.isSet = true

theorem gyroBiasIndex_eq (i j : ℕ) : o.gyroBiasIndex i = .ok j ↔ i < o.maxIMU ∧ j = 13 + 3 * i := by
  by_cases h : i < o.maxIMU
  · simp [Observer.gyroBiasIndex, h, Observer.angVelIndex, Observer.linVelIndex, Observer.oriIndex, Observer.posIndex, eq_comm]
  · simp [Observer.gyroBiasIndex, h]

theorem gyroBiasIndexTangent_eq (i j : ℕ) : o.gyroBiasIndexTangent i = .ok j ↔ i < o.maxIMU ∧ j = 12 + 3 * i := by
  by_cases h : i < o.maxIMU
  · simp [Observer.gyroBiasIndexTangent, h, Observer.angVelIndexTangent, Observer.linVelIndexTangent, Observer.oriIndexTangent,
      Observer.posIndexTangent, eq_comm]
  · simp [Observer.gyroBiasIndexTangent, h]

theorem contactIndex_eq (hi : Inv nc ni o) (n j : ℕ) : o.contactIndex n = .ok j ↔ IsSet o n ∧ j = 19 + 3 * ni + 13 * n := by
  simp only [Observer.contactIndex, Res.bind_eq_ok]
  constructor
  · rintro ⟨_, -, c, h2, _, h3, h4⟩
    have hc := Observer.rd_ok h2
    have hs := Res.assert_ok h3
    simp only [Int.toNat_natCast] at hc
    refine ⟨⟨c, hc, hs⟩, ?_⟩
    have := (hi.2.conIdx n c hc hs).1
    cases h4
    rw [this]; omega
  · rintro ⟨⟨c, hc, hs⟩, rfl⟩
    have hlt : n < o.maxContacts := by
      have hl := (List.getElem?_eq_some_iff.1 hc).1
      rcases hi.2.conLen with h | h
      · rw [hi.1.1]; omega
      · rw [h] at hl; simp at hl
    refine ⟨(), by simp [hlt], c, by simp [rd, hc], (), by simp [hs], ?_⟩
    rw [(hi.2.conIdx n c hc hs).1]
    simp only [Res.ok.injEq]; omega

theorem contactIndexTangent_eq (hi : Inv nc ni o) (n j : ℕ) : o.contactIndexTangent n = .ok j ↔ IsSet o n ∧ j = 18 + 3 * ni + 12 * n := by
  simp only [Observer.contactIndexTangent, Res.bind_eq_ok]
  constructor
  · rintro ⟨_, -, c, h2, _, h3, h4⟩
    have hc := Observer.rd_ok h2
    have hs := Res.assert_ok h3
    simp only [Int.toNat_natCast] at hc
    refine ⟨⟨c, hc, hs⟩, ?_⟩
    have := (hi.2.conIdx n c hc hs).2.1
    cases h4
    rw [this]; omega
  · rintro ⟨⟨c, hc, hs⟩, rfl⟩
    have hlt : n < o.maxContacts := by
      have hl := (List.getElem?_eq_some_iff.1 hc).1
      rcases hi.2.conLen with h | h
      · rw [hi.1.1]; omega
      · rw [h] at hl; simp at hl
    refine ⟨(), by simp [hlt], c, by simp [rd, hc], (), by simp [hs], ?_⟩
    rw [(hi.2.conIdx n c hc hs).2.1]
    simp only [Res.ok.injEq]; omega

theorem isSet_lt (hi : Inv nc ni o) {n : ℕ} (h : IsSet o n) : n < nc := by
  obtain ⟨c, hc, -⟩ := h
  have hl := (List.getElem?_eq_some_iff.1 hc).1
  rcases hi.2.conLen with h | h
  · omega
  · rw [h] at hl; simp at hl

/-- Existing components: those of the contacts that are not set are missing. -/
def Exists (o : Observer) (ni : ℕ) : Comp → Prop
  | .gyroBias i => i < ni
  | .contactPosition n => IsSet o n
  | .contactOrientation n => IsSet o n
  | .contactForce n => IsSet o n
  | .contactTorque n => IsSet o n
  | _ => True

theorem Exists.valid (hi : Inv nc ni o) {c : Comp} (h : Exists o ni c) : c.Valid nc ni := by
  cases c <;> first | exact trivial | exact isSet_lt hi h | exact h

theorem start_eq (hi : Inv nc ni o) (c : Comp) (i : ℕ) : c.start o = .ok i ↔ Exists o ni c ∧ i = off ni c := by
  have hm := hi.1.2
  have h0 := hi.2.imuPos
  cases c <;> simp only [Comp.start, Exists, off, true_and, Res.ok.injEq, Observer.posIndex, Observer.oriIndex, Observer.linVelIndex, Observer.angVelIndex,
    gyroBiasIndex_eq, hm, contactIndex_eq hi, Observer.contactOriIndex, Observer.contactWrenchIndex, Observer.contactTorqueIndex, Res.bind_eq_ok,
    Observer.unmodeledTorqueIndex, Observer.unmodeledWrenchIndex]
  all_goals constructor
  all_goals first
    | omega
    | (rintro ⟨_, ⟨h, rfl⟩, rfl⟩; exact ⟨h, rfl⟩)
    | (rintro ⟨h, rfl⟩; exact ⟨_, ⟨h, rfl⟩, rfl⟩)
    | (rintro ⟨_, ⟨_, ⟨h, rfl⟩, rfl⟩, rfl⟩; first | exact ⟨h, rfl⟩ | omega)
    | (rintro ⟨h, rfl⟩; exact ⟨_, ⟨_, ⟨h, rfl⟩, rfl⟩, rfl⟩)
    | (rintro ⟨_, ⟨h, rfl⟩, rfl⟩; omega)
    | (rintro rfl; exact ⟨_, ⟨h0, rfl⟩, by omega⟩)
    | (rintro rfl; exact ⟨_, ⟨_, ⟨h0, rfl⟩, rfl⟩, by omega⟩)

theorem startTangent_eq (hi : Inv nc ni o) (c : Comp) (i : ℕ) : c.startTangent o = .ok i ↔ Exists o ni c ∧ i = offT ni c := by
  have hm := hi.1.2
  have h0 := hi.2.imuPos
  cases c <;> simp only [Comp.startTangent, Exists, offT, true_and, Res.ok.injEq, Observer.posIndexTangent, Observer.oriIndexTangent,
    Observer.linVelIndexTangent, Observer.angVelIndexTangent,
    gyroBiasIndexTangent_eq, hm, contactIndexTangent_eq hi, Observer.contactOriIndexTangent, Observer.contactWrenchIndexTangent,
    Observer.contactTorqueIndexTangent, Res.bind_eq_ok, Observer.unmodeledTorqueIndexTangent, Observer.unmodeledWrenchIndexTangent]
  all_goals constructor
  all_goals first
    | omega
    | (rintro ⟨_, ⟨h, rfl⟩, rfl⟩; exact ⟨h, rfl⟩)
    | (rintro ⟨h, rfl⟩; exact ⟨_, ⟨h, rfl⟩, rfl⟩)
    | (rintro ⟨_, ⟨_, ⟨h, rfl⟩, rfl⟩, rfl⟩; first | exact ⟨h, rfl⟩ | omega)
    | (rintro ⟨h, rfl⟩; exact ⟨_, ⟨_, ⟨h, rfl⟩, rfl⟩, rfl⟩)
    | (rintro ⟨_, ⟨h, rfl⟩, rfl⟩; omega)
    | (rintro rfl; exact ⟨_, ⟨h0, rfl⟩, by omega⟩)
    | (rintro rfl; exact ⟨_, ⟨_, ⟨h0, rfl⟩, rfl⟩, by omega⟩)

theorem off_range {c : Comp} (h : c.Valid nc ni) : off ni c + c.size ≤ 19 + ni * 3 + nc * 13 := by
  cases c <;> simp only [Comp.Valid, off, Comp.size] at * <;> omega

theorem offT_range {c : Comp} (h : c.Valid nc ni) : offT ni c + 3 ≤ 18 + ni * 3 + 12 * nc := by
  cases c <;> simp only [Comp.Valid, offT] at * <;> omega

theorem off_disjoint {c d : Comp} (hc : c.Valid nc ni) (hd : d.Valid nc ni) (h : c ≠ d) : off ni c + c.size ≤ off ni d ∨ off ni d + d.size ≤ off ni c := by
  cases c <;> cases d <;> simp only [Comp.Valid, off, Comp.size, ne_eq, not_true_eq_false, Comp.gyroBias.injEq, Comp.contactPosition.injEq,
    Comp.contactOrientation.injEq, Comp.contactForce.injEq, Comp.contactTorque.injEq] at * <;> omega

theorem offT_disjoint {c d : Comp} (hc : c.Valid nc ni) (hd : d.Valid nc ni) (h : c ≠ d) : offT ni c + 3 ≤ offT ni d ∨ offT ni d + 3 ≤ offT ni c := by
  cases c <;> cases d <;> simp only [Comp.Valid, offT, ne_eq, not_true_eq_false, Comp.gyroBias.injEq, Comp.contactPosition.injEq,
    Comp.contactOrientation.injEq, Comp.contactForce.injEq, Comp.contactTorque.injEq] at * <;> omega

theorem off_cover {k : ℕ} (hk : k < 19 + ni * 3 + nc * 13) : ∃ c : Comp, c.Valid nc ni ∧ off ni c ≤ k ∧ k < off ni c + c.size := by
  by_cases h1 : k < 3
  · exact ⟨.position, trivial, by simp [off, Comp.size, h1]⟩
  by_cases h2 : k < 7
  · exact ⟨.orientation, trivial, by simp [off, Comp.size]; omega⟩
  by_cases h3 : k < 10
  · exact ⟨.linVel, trivial, by simp [off, Comp.size]; omega⟩
  by_cases h4 : k < 13
  · exact ⟨.angVel, trivial, by simp [off, Comp.size]; omega⟩
  by_cases h5 : k < 13 + 3 * ni
  · exact ⟨.gyroBias ((k - 13) / 3), by simp [Comp.Valid]; omega, by simp [off, Comp.size]; omega⟩
  by_cases h6 : k < 16 + 3 * ni
  · exact ⟨.unmodeledForce, trivial, by simp [off, Comp.size]; omega⟩
  by_cases h7 : k < 19 + 3 * ni
  · exact ⟨.unmodeledTorque, trivial, by simp [off, Comp.size]; omega⟩
  obtain ⟨n, r, hr, rfl⟩ : ∃ n r, r < 13 ∧ k = 19 + 3 * ni + 13 * n + r := ⟨(k - (19 + 3 * ni)) / 13, (k - (19 + 3 * ni)) % 13, by omega, by omega⟩
  have hn : n < nc := by omega
  by_cases g1 : r < 3
  · exact ⟨.contactPosition n, hn, by simp [off, Comp.size]; omega⟩
  by_cases g2 : r < 7
  · exact ⟨.contactOrientation n, hn, by simp [off, Comp.size]; omega⟩
  by_cases g3 : r < 10
  · exact ⟨.contactForce n, hn, by simp [off, Comp.size]; omega⟩
  · exact ⟨.contactTorque n, hn, by simp [off, Comp.size]; omega⟩

theorem offT_cover {k : ℕ} (hk : k < 18 + ni * 3 + 12 * nc) : ∃ c : Comp, c.Valid nc ni ∧ offT ni c ≤ k ∧ k < offT ni c + 3 := by
  by_cases h1 : k < 3
  · exact ⟨.position, trivial, by simp [offT, h1]⟩
  by_cases h2 : k < 6
  · exact ⟨.orientation, trivial, by simp [offT]; omega⟩
  by_cases h3 : k < 9
  · exact ⟨.linVel, trivial, by simp [offT]; omega⟩
  by_cases h4 : k < 12
  · exact ⟨.angVel, trivial, by simp [offT]; omega⟩
  by_cases h5 : k < 12 + 3 * ni
  · exact ⟨.gyroBias ((k - 12) / 3), by simp [Comp.Valid]; omega, by simp [offT]; omega⟩
  by_cases h6 : k < 15 + 3 * ni
  · exact ⟨.unmodeledForce, trivial, by simp [offT]; omega⟩
  by_cases h7 : k < 18 + 3 * ni
  · exact ⟨.unmodeledTorque, trivial, by simp [offT]; omega⟩
  obtain ⟨n, r, hr, rfl⟩ : ∃ n r, r < 12 ∧ k = 18 + 3 * ni + 12 * n + r := ⟨(k - (18 + 3 * ni)) / 12, (k - (18 + 3 * ni)) % 12, by omega, by omega⟩
  have hn : n < nc := by omega
  by_cases g1 : r < 3
  · exact ⟨.contactPosition n, hn, by simp [offT]; omega⟩
  by_cases g2 : r < 6
  · exact ⟨.contactOrientation n, hn, by simp [offT]; omega⟩
  by_cases g3 : r < 9
  · exact ⟨.contactForce n, hn, by simp [offT]; omega⟩
  · exact ⟨.contactTorque n, hn, by simp [offT]; omega⟩

theorem exists_of_valid (hs : ∀ n < nc, IsSet o n) {c : Comp} (h : c.Valid nc ni) : Exists o ni c := by
  cases c <;> first | exact trivial | exact hs _ h | exact h

/-- **C53**: in every reachable state of every observer, the segments of the state vector given by the index functions are inside the vector and disjoint,
and so are those of the tangent vector; the sizes of the vectors are those that are given to the user. -/
theorem C53_disjoint {l : List Op} (h : Reachable nc ni l o) :
    Separated o.stateSize (Comp.start o) Comp.size ∧ Separated o.tangentSize (Comp.startTangent o) (fun _ => 3) ∧
    o.getCurrentStateVector.size = o.stateSize ∧ o.getStateCovarianceMat.hasSize o.tangentSize o.tangentSize = true := by
  have hi := Observer.inv_reachable h
  have e1 : o.stateSize = 19 + ni * 3 + nc * 13 := by rw [Observer.stateSize, hi.1.1, hi.1.2]
  have e2 : o.tangentSize = 18 + ni * 3 + 12 * nc := by rw [Observer.tangentSize, hi.1.1, hi.1.2]
  rw [e1, e2]
  refine ⟨⟨fun c i hc => ?_, fun c d i j hcd hc hd => ?_⟩, ⟨fun c i hc => ?_, fun c d i j hcd hc hd => ?_⟩, hi.2.xSize, hi.2.ekf.pr⟩
  · obtain ⟨h1, rfl⟩ := (start_eq hi c i).1 hc
    exact off_range (h1.valid hi)
  · obtain ⟨h1, rfl⟩ := (start_eq hi c i).1 hc
    obtain ⟨h2, rfl⟩ := (start_eq hi d j).1 hd
    exact off_disjoint (h1.valid hi) (h2.valid hi) hcd
  · obtain ⟨h1, rfl⟩ := (startTangent_eq hi c i).1 hc
    exact offT_range (h1.valid hi)
  · obtain ⟨h1, rfl⟩ := (startTangent_eq hi c i).1 hc
    obtain ⟨h2, rfl⟩ := (startTangent_eq hi d j).1 hd
    exact offT_disjoint (h1.valid hi) (h2.valid hi) hcd

/-- **C53**: when all the contacts are set, the segments cover both vectors. (A contact that is not set has no index.) -/
theorem C53_cover {l : List Op} (h : Reachable nc ni l o) (hs : ∀ n < nc, IsSet o n) :
    Covers o.stateSize (Comp.start o) Comp.size ∧ Covers o.tangentSize (Comp.startTangent o) (fun _ => 3) := by
  have hi := Observer.inv_reachable h
  have e1 : o.stateSize = 19 + ni * 3 + nc * 13 := by rw [Observer.stateSize, hi.1.1, hi.1.2]
  have e2 : o.tangentSize = 18 + ni * 3 + 12 * nc := by rw [Observer.tangentSize, hi.1.1, hi.1.2]
  rw [e1, e2]
  constructor
  · intro k hk
    obtain ⟨c, hc, h1, h2⟩ := off_cover hk
    exact ⟨c, off ni c, (start_eq hi c _).2 ⟨exists_of_valid hs hc, rfl⟩, h1, h2⟩
  · intro k hk
    obtain ⟨c, hc, h1, h2⟩ := offT_cover hk
    exact ⟨c, offT ni c, (startTangent_eq hi c _).2 ⟨exists_of_valid hs hc, rfl⟩, h1, h2⟩

/-- Every component that exists has an index. -/
theorem C53_defined {l : List Op} (h : Reachable nc ni l o) (c : Comp) (hc : Exists o ni c) :
    (∃ i, c.start o = .ok i) ∧ ∃ i, c.startTangent o = .ok i := by
  have hi := Observer.inv_reachable h
  exact ⟨⟨_, (start_eq hi c _).2 ⟨hc, rfl⟩⟩, ⟨_, (startTangent_eq hi c _).2 ⟨hc, rfl⟩⟩⟩

end StateObs.KO
