import Verif.Offline.ModelBegin
import Verif.ModelFlex.SideProps
/-! # Every list of data is a run of the extended Kalman filter -/

namespace StateObs.Offline
open StateObs KF KFSpec Matrix Imu Rot Kine
open StateObs.ModelFlex (Op Config Inv Has Est StateJacobian MeasureJacobian weights)

theorem simulated_step {mem : ℕ → ℕ → ℕ → ℝ} {a : ModelArgs} {ops : List Op} {s u : Est} {x : DVec} {P : Matrix (Fin 35) (Fin 35) ℝ} {d : Datum} (hl : Between mem a ops s x P (some d))
    (hy : s.ekf.y.v = []) (hon : s.on = true) {b : Bool} (h : simulateIf b s = .ok u) :
    Between mem a (ops ++ if b then [.getSimulatedMeasurement] else []) u x P (some d) ∧ u.Q = s.Q ∧ u.R = s.R ∧ u.k = s.k := by
  cases b with
  | false =>
    cases h
    refine ⟨?_, rfl, rfl, rfl⟩
    simp only [Bool.false_eq_true, if_false, List.append_nil]
    exact hl
  | true =>
    have hrun := run_of hl.run h
    simp only [simulateIf, if_true, List.foldlM_cons, List.foldlM_nil, bind_pure, ModelFlex.exec, Res.bind_eq_ok] at h
    obtain ⟨⟨y, t⟩, h1, h2⟩ := h
    cases h2
    obtain ⟨-, -, -, -, -, -, -, h3, h4, -, h5, h6, h7⟩ := ModelFlex.C99_simulated hl.run hon (not_not.2 hy) h1
    have hi := ModelFlex.inv_run hl.run
    simp only [ModelFlex.Est.getSimulatedMeasurement, ModelFlex.getVector_idle hon hy, Res.ok_bind, Res.bind_eq_ok] at h1
    obtain ⟨k, -, z, -, ⟨y', f⟩, h8, h9⟩ := h1
    cases h9
    have hu := ModelFlex.simulateSensor_upd hi.f.reach h8
    have hn : f.st.ext.sys.nb = s.sys.nb := hu.same.nb
    refine ⟨⟨hrun, ?_, ?_, ?_, ⟨?_, ?_⟩, h5.trans hl.P, ?_⟩, rfl, rfl, rfl⟩
    · intro op hop
      rcases List.mem_append.1 hop with hop | hop
      · exact hl.quiet op hop
      · simp only [if_true, List.mem_singleton] at hop
        subst hop
        rfl
    · obtain ⟨n, hn⟩ := hl.cfg
      refine ⟨n, ?_⟩
      unfold Config.of at hn ⊢
      rw [List.foldl_append, hn]
      rfl
    · exact h3.trans hl.x
    · exact h4.trans hl.u.1
    · exact hn.trans hl.u.2
    · show Robot a f.st.ext.sys.nb f.st.ext.sys
      rw [hn]
      exact hl.robot.same hu.same hu.reach

/-- The covariances of the process noise are given for every time or for none. -/
def UniformQ (a : ModelArgs) (s : Est) (l : List Datum) : Prop := (∀ d ∈ l, d.Q ≠ none) ∨ ((∀ d ∈ l, d.Q = none) ∧ s.Q = (constant a.Q).getD ⟨35, 35, defaultCov⟩)

/-- The covariances of the measurement noise are given for every time or for none. -/
def UniformR (a : ModelArgs) (s : Est) (l : List Datum) : Prop :=
  (∀ d ∈ l, d.R ≠ none) ∨ ((∀ d ∈ l, d.R = none) ∧ (a.withForce = false → ∀ V : Matrix (Fin 6) (Fin 6) ℝ, constant a.R = some ⟨6, 6, V⟩ → s.R = ⟨6, 6, V⟩))

/-- The covariances are as the filter needs them. -/
structure Sound (a : ModelArgs) (d : Datum) : Prop where
  size : a.withForce = false → d.y.size = 6
  Q : ∃ Q : Matrix (Fin 35) (Fin 35) ℝ, processCov a d = ⟨35, 35, Q⟩ ∧ Q.PosSemidef
  R : ∃ R : Matrix (Fin d.y.size) (Fin d.y.size) ℝ, measuredCov a d = some ⟨_, _, R⟩ ∧ R.PosSemidef

theorem steps_run {mem : ℕ → ℕ → ℕ → ℝ} {a : ModelArgs} {w : Wanted} : ∀ (l : List Datum) (r : List Told) (ops : List Op) (s : Est) (x : DVec) (P : Matrix (Fin 35) (Fin 35) ℝ) (prev : Option Datum),
    Between mem a ops s x P prev → P.PosSemidef → UniformQ a s l → UniformR a s l → (∀ d ∈ l, Sound a d) → Steps w s l r → ModelRun a w s.k x P prev l r
  | [], _, _, _, _, _, _, _, _, _, _, _, h => by
    cases h
    exact .done ..
  | d :: l, r, ops, s, x, P, prev, hl, hP, hQ, hR, hd, h => by
    cases h with
    | cons _ _ _ t u q r h1 h2 h3 h4 =>
    obtain ⟨hsz, ⟨Q, eQ, pQ⟩, ⟨R, eR, pR⟩⟩ := hd d (by simp)
    have sQ : d.Q.getD s.Q = ⟨35, 35, Q⟩ := by
      rw [← eQ, processCov]
      rcases hQ with hQ | ⟨hQ, e⟩
      · obtain ⟨V, hV⟩ := Option.ne_none_iff_exists'.1 (hQ d (by simp))
        rw [hV]; rfl
      · rw [hQ d (by simp), e]
    have sR : d.R = some ⟨_, _, R⟩ ∨ d.R = none ∧ a.withForce = false ∧ s.R = ⟨_, _, R⟩ := by
      unfold measuredCov at eR
      rcases hR with hR | ⟨hR, e⟩
      · obtain ⟨V, hV⟩ := Option.ne_none_iff_exists'.1 (hR d (by simp))
        rw [hV] at eR ⊢
        exact .inl eR
      · have hn := hR d (by simp)
        rw [hn] at eR
        dsimp only at eR
        split_ifs at eR with hF
        have hF : a.withForce = false := by simpa using hF
        have h6 := hsz hF
        refine .inr ⟨hn, hF, ?_⟩
        clear pR
        generalize d.y.size = m at *
        subst h6
        exact e hF R eR
    obtain ⟨f, f1, f2, xb, yb, A, C, z, o, g1, g2, g3, g4, g5, g6, g7, g8, g9, g10, g11, g12, g13, g14, g15, g16, g17, g18⟩ := ask_step hl hP sQ pQ sR pR h1
    obtain ⟨b1, b2, b3, b4⟩ := simulated_step g14 g17 g18 h3
    have hv : nrm (seg 3 z 3) ≤ Real.pi * (2 ^ 33 - 1) := by
      by_contra hv
      rw [C42_false _ (not_le.1 hv)] at g7
      cases g7
    obtain ⟨o', e, ho1, ho2, -⟩ := C42_partial _ hv
    rw [g7] at e
    cases e
    have hq : q.estimate = t.lastX := h2.estimate.symm
    refine .step _ x P prev d l q r d.y.size d.y.val Q R f f1 f2 xb yb A C z o rfl eQ eR g1 g2 g3 g4 g5 g6 ho1 ho2 (hq.trans g8) ?_ ?_ ?_ ?_ ?_
    · intro hw
      have := h2.prediction hw
      rw [g9] at this
      exact (Res.ok.inj this).symm
    · rw [← h2.innovation, g10]
    · intro hw
      have := h2.predicted hw
      rw [g11] at this
      exact (Res.ok.inj this).symm
    · intro hw
      obtain ⟨t', ht⟩ := h2.simulated hw
      obtain ⟨x', u', l', s', c1, c2, c3, -⟩ := ModelFlex.C99_simulated g14.run g18 (not_not.2 g17) ht
      rw [g14.x] at c1
      cases c1
      rw [g14.u.1] at c2
      cases c2
      refine ⟨t.sys, s', ?_, ?_⟩
      · have := g14.robot
        rw [g14.u.2] at this
        exact this
      · rw [hq, ← g12]
        exact c3
    · have := steps_run l r _ u _ _ (some d) b1 g13 ?_ ?_ (fun d hd' => hd d (by simp [hd'])) h4
      · rw [b4, g12, ← hq] at this
        exact this
      · rcases hQ with hQ | ⟨hQ, e⟩
        · exact .inl fun d hd => hQ d (by simp [hd])
        · refine .inr ⟨fun d hd => hQ d (by simp [hd]), ?_⟩
          rw [b2, g15, hQ d (by simp), ← e]
          rfl
      · rcases hR with hR | ⟨hR, e⟩
        · exact .inl fun d hd => hR d (by simp [hd])
        · refine .inr ⟨fun d hd => hR d (by simp [hd]), fun hF V hV => ?_⟩
          rw [b3, g16 (hR d (by simp)) hF, e hF V hV]

end StateObs.Offline
