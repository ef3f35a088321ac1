import Verif.Elastic.Lemmas
/-! # Lemmas on the forces of the contacts -/

namespace StateObs.Elastic
open StateObs Matrix Rot Kine Imu
open StateObs.KO (Robot at3)

variable {G : Type}

/-- The input about contact `i`. -/
def contactIn (u : DVec) (i : ℕ) : ContactIn := ⟨at3 u (48 + 12 * i), at3 u (48 + 12 * i + 3), at3 u (48 + 12 * i + 6), at3 u (48 + 12 * i + 9)⟩

theorem contacts_eq (u : DVec) (n : ℕ) (hu : u.size = 48 + 12 * n) : (readInput n (cast u _ hu)).contacts = (List.range n).map (contactIn u) := by
  simp only [readInput, seg3_cast]
  rfl

theorem elasticPure_ok {s : Sys G} {u : DVec} {p v θ : V3} {R : M3} {ω : V3} : ∀ (n k : ℕ) {fc tc : Fin 2 → V3} {w : (Fin 2 → V3) × (Fin 2 → V3)},
    elasticPure s p v θ R ω ((List.range' k n).map (contactIn u)) k fc tc = .ok w → ∀ i : Fin 2,
    (w.1 i, w.2 i) = if k ≤ i.val ∧ i.val < k + n then s.contactForce (contactIn u i) (contactOri u i) p v θ R ω else (fc i, tc i)
  | 0, k, fc, tc, w, h, i => by
    simp only [List.range'_zero, List.map_nil, elasticPure] at h
    cases h
    rw [if_neg (by omega)]
  | n + 1, k, fc, tc, w, h, i => by
    simp only [List.range'_succ, List.map_cons, elasticPure] at h
    split_ifs at h with hk
    rw [elasticPure_ok n (k + 1) h i]
    by_cases h1 : i.val = k
    · rw [if_neg (by omega), if_pos (by omega)]
      have : i = ⟨k, hk⟩ := Fin.ext h1
      rw [this, Function.update_self, Function.update_self]
      rfl
    · have hne : i ≠ ⟨k, hk⟩ := fun e => h1 (congrArg Fin.val e)
      rw [Function.update_of_ne hne, Function.update_of_ne hne]
      by_cases h2 : k + 1 ≤ i.val ∧ i.val < k + 1 + n
      · rw [if_pos h2, if_pos (by omega)]
      · rw [if_neg h2, if_neg (by omega)]

theorem elasticPure_live {s : Sys G} {p v θ : V3} {R : M3} {ω : V3} : ∀ (cs : List ContactIn) (k : ℕ) (fc tc : Fin 2 → V3), k + cs.length ≤ 2 →
    ∃ w, elasticPure s p v θ R ω cs k fc tc = .ok w
  | [], _, _, _, _ => ⟨_, rfl⟩
  | c :: cs, k, fc, tc, h => by
    simp only [List.length_cons] at h
    unfold elasticPure
    simp only
    rw [dif_pos (by omega)]
    exact elasticPure_live cs _ _ _ (by omega)

theorem ropeForces_ok {s : Sys G} {p : V3} {R : M3} : ∀ (cs : List ContactIn) {f w : V3}, s.ropeForces p R cs f = .ok w →
    (∀ c ∈ cs, nrm (p + R *ᵥ c.pos - s.pe) ≠ 0) ∧
    w = f + (cs.map fun c => -((nrm (p + R *ᵥ c.pos - s.pe) - nrm (c.pos - s.pe)) •
      (s.KfeRopes *ᵥ ((1 / nrm (p + R *ᵥ c.pos - s.pe)) • (p + R *ᵥ c.pos - s.pe))))).sum
  | [], f, w, h => by
    cases h
    simp
  | c :: cs, f, w, h => by
    unfold Sys.ropeForces at h
    obtain ⟨fi, h1, h2⟩ := Res.bind_eq_ok.1 h
    unfold Sys.ropeForce at h1
    simp only at h1
    split_ifs at h1 with h0
    cases h1
    obtain ⟨h3, h4⟩ := ropeForces_ok cs h2
    refine ⟨fun d hd => ?_, ?_⟩
    · rcases List.mem_cons.1 hd with rfl | hd
      · exact h0
      · exact h3 d hd
    · rw [h4, List.map_cons, List.sum_cons, add_assoc]

theorem ropeForces_live {s : Sys G} {p : V3} {R : M3} : ∀ (cs : List ContactIn) (f : V3), (∀ c ∈ cs, nrm (p + R *ᵥ c.pos - s.pe) ≠ 0) → ∃ w, s.ropeForces p R cs f = .ok w
  | [], f, _ => ⟨f, rfl⟩
  | c :: cs, f, h => by
    unfold Sys.ropeForces Sys.ropeForce
    simp only
    rw [if_neg (h c List.mem_cons_self)]
    exact ropeForces_live cs _ fun d hd => h d (List.mem_cons_of_mem _ hd)

/-- What `getForcesAndMoments(x, u)` returns. -/
theorem forcesAndMoments_ok {s s' : Sys G} {x u : DVec} {l : List (V3 × V3)} (hi : Inv s) (h : s.forcesAndMoments x u = .ok (l, s')) :
    ∃ w, s.forcesPure ((List.range s.nb).map (contactIn u)) (at3 x 0) (at3 x 6) (at3 x 3) (rotationVectorToRotationMatrix (at3 x 3)) (at3 x 9) = .ok w ∧ s.nb ≤ 2 ∧
      l = (List.range s.nb).map fun i => if h : i < 2 then (w.1 ⟨i, h⟩, w.2 ⟨i, h⟩) else 0 := by
  obtain ⟨hx, hu⟩ := forcesAndMoments_sizes h
  obtain ⟨rt, -, e⟩ := forcesAndMoments_eq hi.rot x u hx hu
  rw [e, contacts_eq] at h
  simp only [seg3_cast] at h
  obtain ⟨w, hw, h⟩ := Res.bind_eq_ok.1 h
  obtain ⟨l', hl, h⟩ := Res.bind_eq_ok.1 h
  cases h
  unfold Sys.getForces at hl
  simp only at hl
  split_ifs at hl with hn
  cases hl
  exact ⟨w, hw, hn, rfl⟩

theorem forcesAndMoments_live {s : Sys G} {x u : DVec} (hi : Inv s) (hx : x.size = 35) (hu : u.size = 48 + 12 * s.nb) (hn : s.nb ≤ 2)
    (h : ∃ w, s.forcesPure ((List.range s.nb).map (contactIn u)) (at3 x 0) (at3 x 6) (at3 x 3) (rotationVectorToRotationMatrix (at3 x 3)) (at3 x 9) = .ok w) :
    ∃ l s', s.forcesAndMoments x u = .ok (l, s') := by
  obtain ⟨rt, -, e⟩ := forcesAndMoments_eq hi.rot x u hx hu
  rw [e, contacts_eq]
  simp only [seg3_cast]
  obtain ⟨w, h⟩ := h
  rw [h]
  have hg : Sys.getForces { s with fc := w.1, tc := w.2, rot := rt } = .ok ((List.range s.nb).map fun i => if h : i < 2 then (w.1 ⟨i, h⟩, w.2 ⟨i, h⟩) else 0) := if_pos hn
  exact ⟨_, _, congrArg (fun q => Res.bind q _) hg⟩

end StateObs.Elastic
