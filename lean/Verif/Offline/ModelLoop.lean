import Verif.Offline.ModelSpec
import Verif.Offline.FlexLoop
import Verif.ModelFlex.CovLemmas
import Verif.ModelFlex.Config
import Verif.OutcomeLaws
/-! # The loop of the offline estimation with elastic contacts -/

namespace StateObs.Offline
open StateObs KF Matrix
open StateObs.ModelFlex (Op Config)

/-! ## Numbers of contacts -/

theorem round_nearest {r : ℝ} {n : ℕ} (h : Nearest r n) : roundAway r = n := by
  unfold roundAway
  rcases h with h | ⟨rfl, h⟩
  · rw [abs_lt] at h
    split_ifs with h0
    · rw [Int.floor_eq_iff]
      push_cast
      constructor <;> linarith [h.1, h.2]
    · have hn : n = 0 := by
        by_contra hn
        have : (1 : ℝ) ≤ n := by exact_mod_cast Nat.one_le_iff_ne_zero.2 hn
        linarith [h.1, h.2, not_le.1 h0]
      subst hn
      have : ⌊-r + 1 / 2⌋ = 0 := by
        rw [Int.floor_eq_iff]
        push_cast
        have := not_le.1 h0
        have := h.1
        push_cast at this
        constructor <;> linarith
      rw [this]
      rfl
  · have h1 : (1 : ℝ) ≤ n := by exact_mod_cast h
    rw [if_pos (by linarith)]
    rw [Int.floor_eq_iff]
    push_cast
    constructor <;> linarith

theorem toUnsigned_nat {n : ℕ} (h : n < 2 ^ 32) : toUnsigned n = .ok n := by
  unfold toUnsigned
  rw [if_pos ⟨by omega, by exact_mod_cast h⟩]
  simp

theorem headOf_begins {w v : DVec} {m : ℕ} (h : Begins w v) (hm : w.size = m) : headOf v m = .ok w := by
  obtain ⟨hs, hv⟩ := h
  subst hm
  rw [headOf, dif_pos hs]
  congr 1
  obtain ⟨n, w⟩ := w
  congr 1
  funext i
  exact (hv i).symm

/-! ## The calls -/

theorem callIf_given {M : IArr DMat} {i : Int} {o : Option DMat} (h : Given M i o) (f : DMat → Op) (s : ModelFlex.Est) :
    callIf (M.size > 1) s (M.get i >>= fun V => .ok (f V)) = (o.map f).toList.foldlM ModelFlex.exec s := by
  rcases h with ⟨h1, V, h2, rfl⟩ | ⟨h1, rfl⟩
  · rw [callIf, if_pos (by simpa using h1), h2]
    simp only [Res.ok_bind, Option.map_some, Option.toList_some, List.foldlM_cons, List.foldlM_nil, bind_pure]
  · rw [callIf, if_neg (by simpa using h1)]
    rfl

theorem callIf_constant (M : IArr DMat) (f : DMat → Op) (s : ModelFlex.Est) :
    callIf (M.size = 1) s (M.get M.getFirstIndex >>= fun V => .ok (f V)) = ((constant M).map f).toList.foldlM ModelFlex.exec s := by
  obtain ⟨k, v⟩ := M
  match v with
  | [] => rfl
  | [V] =>
    simp only [callIf, IArr.size, constant, IArr.get, IArr.getFirstIndex, IArr.checkIndex, Res.assert, Option.map_some, Option.toList_some, List.foldlM_cons, List.foldlM_nil, bind_pure]
    simp
  | _ :: _ :: _ => simp [callIf, IArr.size, constant]

theorem modelSetup_eq (a : ModelArgs) (s : ModelFlex.Est) : modelSetup a s = (before a).foldlM ModelFlex.exec s := by
  unfold modelSetup before
  simp only [callIf_constant, List.foldlM_append, List.foldlM_cons, List.foldlM_nil, bind_assoc, bind_pure]
  have hg : ∀ s, modelGains a s = (gains a).foldlM ModelFlex.exec s := by
    intro s
    unfold modelGains gains
    by_cases h : a.kfe = 0
    · simp only [h, ne_eq, not_true_eq_false, if_false, if_true]
      rfl
    · simp only [h, ne_eq, not_false_eq_true, if_false, if_true, List.foldlM_cons, List.foldlM_nil, bind_pure]
  simp only [hg]

/-- The options chosen by the function. -/
structure Chosen (a : ModelArgs) (c : Config) : Prop where
  force : c.force = a.withForce
  abs : c.abs = false

theorem chosen_before (a : ModelArgs) : Chosen a (Config.of (before a)) := by
  have hg : ∀ c : Config, (gains a).foldl Config.after c = c := by
    intro c
    unfold gains
    split_ifs <;> rfl
  have hQ : ∀ (o : Option DMat) (c : Config), (o.map Op.setProcessNoiseCovariance).toList.foldl Config.after c = c := by rintro (_ | _) c <;> rfl
  have hR : ∀ (o : Option DMat) (c : Config), (o.map Op.setMeasurementNoiseCovariance).toList.foldl Config.after c = c := by rintro (_ | _) c <;> rfl
  unfold Config.of before
  simp only [List.foldl_append, hg, hQ, hR]
  exact ⟨rfl, rfl⟩

theorem chosen_ask {a : ModelArgs} {c : Config} (h : Chosen a c) (d : Datum) : Chosen a ((ask d).foldl Config.after c) := by
  have hQ : ∀ (o : Option DMat) (c : Config), (o.map Op.setProcessNoiseCovariance).toList.foldl Config.after c = c := by rintro (_ | _) c <;> rfl
  have hR : ∀ (o : Option DMat) (c : Config), (o.map Op.setMeasurementNoiseCovariance).toList.foldl Config.after c = c := by rintro (_ | _) c <;> rfl
  unfold ask
  simp only [List.foldl_append, hQ, hR]
  exact ⟨h.force, h.abs⟩

theorem chosen_moment {a : ModelArgs} {c : Config} (h : Chosen a c) (b : Bool) (d : Datum) : Chosen a ((moment b d).foldl Config.after c) := by
  unfold moment
  rw [List.foldl_append]
  have := chosen_ask h d
  cases b
  · exact this
  · exact ⟨this.force, this.abs⟩

theorem modelMoment_eq {a : ModelArgs} {i : Int} {d : Datum} (h : Of a i d) {s : ModelFlex.Est} {c : Config} (hi : ModelFlex.Inv s) (hc : ModelFlex.Has s c)
    (hk : Chosen a c) : modelMoment a i s = (ask d).foldlM ModelFlex.exec s := by
  obtain ⟨v, hv, hs, hn⟩ := h.contacts
  obtain ⟨y, hy, hz, hb⟩ := h.y
  unfold modelMoment ask
  simp only [hv, Res.ok_bind, EKF.DVec.at, dif_pos hs, round_nearest hn, toUnsigned_nat h.small, hy, h.u, callIf_given h.Q, callIf_given h.R]
  simp only [List.foldlM_append, List.foldlM_cons, List.foldlM_nil, bind_assoc, bind_pure]
  cases h1 : ModelFlex.exec s (.setContactsNumber d.n) with
  | ok s1 =>
    have hi1 := ModelFlex.inv_exec hi _ h1
    have hc1 := ModelFlex.has_exec hi hc _ h1
    have hm : d.y.size = s1.sys.measSize := by
      rw [hz, hc1.size hi1, Config.size]
      show sizeWith a.withForce d.n = 6 + (if c.force = true then d.n * 6 else 0) + (if c.abs = true then 6 else 0)
      rw [hk.force, hk.abs]
      unfold sizeWith
      cases a.withForce <;> simp
      omega
    simp only [Res.ok_bind, headOf_begins hb hm]
  | assertFail => rfl
  | ub => rfl
  | exn => rfl

theorem exec_simulated (s : ModelFlex.Est) : ModelFlex.exec s .getSimulatedMeasurement = s.getSimulatedMeasurement >>= fun v => .ok v.2 := rfl

/-! ## The loop -/

/-- The state after the calls for one time. -/
noncomputable def simulateIf (b : Bool) (s : ModelFlex.Est) : Res ModelFlex.Est := (if b then [.getSimulatedMeasurement] else []).foldlM ModelFlex.exec s

/-- An online estimator in the state `s` answers `r` to the calls for the times of `l`. -/
inductive Steps (w : Wanted) : ModelFlex.Est → List Datum → List Told → Prop
  | nil (s) : Steps w s [] []
  | cons (s d l t u q r) (h1 : (ask d).foldlM ModelFlex.exec s = .ok t) (h2 : Answers w t q) (h3 : simulateIf w.simumea t = .ok u) (h4 : Steps w u l r) :
      Steps w s (d :: l) (q :: r)

/-- The outputs after the answers `r`. -/
def ModelOut.after (o : ModelOut) (i : Int) (r : List Told) : ModelOut :=
  ⟨⟨o.xh.k, o.xh.v ++ r.map Told.estimate⟩, o.prediction.map (app i (r.map Told.prediction)), o.ino.map (app i (r.map Told.innovation)),
    o.premea.map (app i (r.map Told.predicted)), o.simumea.map (app i (r.map Told.simulated))⟩

/-- What the pointers ask for. -/
def ModelOut.wanted (o : ModelOut) : Wanted := ⟨o.prediction.isSome, o.ino.isSome, o.premea.isSome, o.simumea.isSome⟩

/-- All arrays can be written from time `i` on. -/
structure ModelOut.Ready (o : ModelOut) (i : Int) : Prop where
  prediction : OptReady o.prediction i
  ino : OptReady o.ino i
  premea : OptReady o.premea i
  simumea : OptReady o.simumea i

theorem record_val {p : Option (IArr DVec)} {i : Int} (h : OptReady p i) {v : Res DVec} {q : Option (IArr DVec)} (e : record p v i = .ok q) :
    ∃ x, (p.isSome = true → v = .ok x) ∧ q = p.map (app i [x]) := by
  cases p with
  | none =>
    cases e
    exact ⟨⟨0, 0⟩, by simp, rfl⟩
  | some a =>
    simp only [record, Res.bind_eq_ok] at e
    obtain ⟨x, hx, b, hb, e⟩ := e
    cases e
    rw [setValue_ready (h a rfl)] at hb
    cases hb
    exact ⟨x, fun _ => hx, rfl⟩

theorem val_record {p : Option (IArr DVec)} {i : Int} (h : OptReady p i) {v : Res DVec} {x : DVec} (e : p.isSome = true → v = .ok x) :
    record p v i = .ok (p.map (app i [x])) := by
  cases p with
  | none => rfl
  | some a => rw [e rfl, record_ok h]

theorem simulated_val {p : Option (IArr DVec)} {i : Int} (h : OptReady p i) {s : ModelFlex.Est} {m : Option (IArr DVec) × ModelFlex.Est}
    (e : modelSimulated p i s = .ok m) :
    ∃ x, (p.isSome = true → ∃ t, s.getSimulatedMeasurement = .ok (x, t)) ∧ m.1 = p.map (app i [x]) ∧ simulateIf p.isSome s = .ok m.2 := by
  cases p with
  | none =>
    cases e
    exact ⟨⟨0, 0⟩, by simp, rfl, rfl⟩
  | some a =>
    simp only [modelSimulated, Res.bind_eq_ok] at e
    obtain ⟨⟨x, t⟩, hx, b, hb, e⟩ := e
    cases e
    rw [setValue_ready (h a rfl)] at hb
    cases hb
    refine ⟨x, fun _ => ⟨t, hx⟩, rfl, ?_⟩
    simp [simulateIf, exec_simulated, hx]

theorem val_simulated {p : Option (IArr DVec)} {i : Int} (h : OptReady p i) {s u : ModelFlex.Est} {x : DVec}
    (e : p.isSome = true → ∃ t, s.getSimulatedMeasurement = .ok (x, t)) (e' : simulateIf p.isSome s = .ok u) : modelSimulated p i s = .ok (p.map (app i [x]), u) := by
  cases p with
  | none =>
    cases e'
    rfl
  | some a =>
    obtain ⟨t, ht⟩ := e rfl
    simp [simulateIf, exec_simulated, ht] at e'
    subst e'
    simp [modelSimulated, ht, setValue_ready (h a rfl)]

theorem after_cons (o : ModelOut) (i : Int) (q : Told) (r : List Told) :
    ModelOut.after ⟨o.xh.pushBack q.estimate, o.prediction.map (app i [q.prediction]), o.ino.map (app i [q.innovation]), o.premea.map (app i [q.predicted]),
      o.simumea.map (app i [q.simulated])⟩ (i + 1) r = o.after i (q :: r) := by
  simp [ModelOut.after, IArr.pushBack, app_app, Function.comp_def]

theorem after_nil (o : ModelOut) (i : Int) : o.after i [] = o := by simp [ModelOut.after, map_app_nil]

theorem foldlM_ok {ops : List Op} : ∀ {s t : ModelFlex.Est}, ModelFlex.Inv s → ops.foldlM ModelFlex.exec s = .ok t → ModelFlex.Inv t := by
  induction ops with
  | nil => intro s t hi h; cases h; exact hi
  | cons op ops ih =>
    intro s t hi h
    simp only [List.foldlM_cons, Res.bind_eq_ok] at h
    obtain ⟨s1, h1, h2⟩ := h
    exact ih (ModelFlex.inv_exec hi _ h1) h2

theorem loop_iff {a : ModelArgs} : ∀ (l : List Datum) (i : Int) (s : ModelFlex.Est) (c : Config) (o o' : ModelOut), ModelFlex.Inv s → ModelFlex.Has s c → Chosen a c →
    (∀ j (h : j < l.length), Of a (i + j) l[j]) → o.Ready i →
    (modelLoop a l.length i s o = .ok o' ↔ ∃ r, Steps o.wanted s l r ∧ o' = o.after i r)
  | [], i, s, c, o, o', _, _, _, _, _ => by
    constructor
    · intro h
      cases h
      exact ⟨[], .nil s, (after_nil o i).symm⟩
    · rintro ⟨r, hr, rfl⟩
      cases hr
      rw [after_nil]
      rfl
  | d :: l, i, s, c, o, o', hi, hc, hk, hd, hr => by
    have h0 := hd 0 (by simp)
    simp only [Nat.cast_zero, add_zero, List.getElem_cons_zero] at h0
    have ht : ∀ j (h : j < l.length), Of a (i + 1 + j) l[j] := by
      intro j h
      have := hd (j + 1) (by simpa using h)
      simp only [List.getElem_cons_succ, Nat.cast_add, Nat.cast_one] at this
      rwa [show i + 1 + (j : Int) = i + ((j : Int) + 1) by ring]
    simp only [List.length_cons, modelLoop, modelMoment_eq h0 hi hc hk]
    have next : ∀ {t u : ModelFlex.Est} {q : Told}, (ask d).foldlM ModelFlex.exec s = .ok t → simulateIf o.simumea.isSome t = .ok u →
        (modelLoop a l.length (i + 1) u ⟨o.xh.pushBack q.estimate, o.prediction.map (app i [q.prediction]), o.ino.map (app i [q.innovation]), o.premea.map (app i [q.predicted]),
          o.simumea.map (app i [q.simulated])⟩ = .ok o' ↔ ∃ r, Steps o.wanted u l r ∧ o' = o.after i (q :: r)) := by
      intro t u q e1 e2
      have it := foldlM_ok hi e1
      have iu := foldlM_ok it e2
      have ct := ModelFlex.has_fold _ hi hc e1
      have cu := ModelFlex.has_fold _ it ct e2
      have ku := chosen_moment hk o.simumea.isSome d
      unfold moment at ku
      rw [List.foldl_append] at ku
      have := loop_iff l (i + 1) u _ ⟨o.xh.pushBack q.estimate, o.prediction.map (app i [q.prediction]), o.ino.map (app i [q.innovation]), o.premea.map (app i [q.predicted]),
        o.simumea.map (app i [q.simulated])⟩ o' iu cu ku ht ⟨optReady_map hr.prediction _, optReady_map hr.ino _, optReady_map hr.premea _, optReady_map hr.simumea _⟩
      simp only [after_cons] at this
      rw [this]
      simp only [ModelOut.wanted, Option.isSome_map]
    constructor
    · intro h
      simp only [Res.bind_eq_ok] at h
      obtain ⟨t, e1, p1, f1, p2, f2, p3, f3, m, f4, e⟩ := h
      obtain ⟨x1, g1, rfl⟩ := record_val hr.prediction f1
      rw [record_ok hr.ino] at f2
      cases f2
      obtain ⟨x3, g3, rfl⟩ := record_val hr.premea f3
      obtain ⟨x4, g4, hm, e2⟩ := simulated_val hr.simumea f4
      rw [hm] at e
      obtain ⟨r, hr', rfl⟩ := (next (q := ⟨t.lastX, x1, t.ekf.st.innovation, x3, x4⟩) e1 e2).1 e
      exact ⟨⟨t.lastX, x1, t.ekf.st.innovation, x3, x4⟩ :: r, .cons s d l t m.2 _ r e1 ⟨rfl, g1, rfl, g3, g4⟩ e2 hr', rfl⟩
    · rintro ⟨r, hs, rfl⟩
      cases hs with
      | cons _ _ _ t u q r e1 h2 e2 h4 =>
        simp only [e1, Res.ok_bind, val_record hr.prediction h2.prediction, record_ok hr.ino, val_record hr.premea h2.predicted, val_simulated hr.simumea h2.simulated e2]
        rw [h2.estimate, h2.innovation]
        exact (next e1 e2).2 ⟨r, h4, rfl⟩

/-! ## From the beginning -/

theorem run_append {mem : ℕ → ℕ → ℕ → ℝ} {dt : ℝ} {ops ops' : List Op} {s : ModelFlex.Est} (h : ModelFlex.run mem dt ops = .ok s) :
    ModelFlex.run mem dt (ops ++ ops') = ops'.foldlM ModelFlex.exec s := by
  unfold ModelFlex.run at h ⊢
  rw [Res.bind_eq_ok] at h
  obtain ⟨s0, h0, h1⟩ := h
  rw [h0, Res.ok_bind, List.foldlM_append, h1, Res.ok_bind]

theorem steps_iff {mem : ℕ → ℕ → ℕ → ℝ} {dt : ℝ} {w : Wanted} : ∀ (l : List Datum) (r : List Told) (ops : List Op) (s : ModelFlex.Est), ModelFlex.run mem dt ops = .ok s →
    (Steps w s l r ↔ r.length = l.length ∧ ∀ j (h : j < l.length) (h' : j < r.length),
      ∃ t, ModelFlex.run mem dt (ops ++ (l.take j).flatMap (moment w.simumea) ++ ask l[j]) = .ok t ∧ Answers w t r[j])
  | [], r, ops, s, _ => by
    constructor
    · intro h; cases h; simp
    · rintro ⟨h, -⟩
      rw [List.length_nil, List.length_eq_zero_iff] at h
      subst h
      exact .nil s
  | d :: l, [], ops, s, _ => by
    constructor
    · intro h; cases h
    · rintro ⟨h, -⟩; simp at h
  | d :: l, q :: r, ops, s, h0 => by
    constructor
    · intro h
      cases h with
      | cons _ _ _ t u _ _ h1 h2 h3 h4 =>
        have ht : ModelFlex.run mem dt (ops ++ ask d) = .ok t := (run_append h0).trans h1
        have hu : ModelFlex.run mem dt (ops ++ moment w.simumea d) = .ok u := by
          unfold moment
          rw [← List.append_assoc]
          exact (run_append ht).trans h3
        obtain ⟨g1, g2⟩ := (steps_iff l r _ u hu).1 h4
        refine ⟨by simp [g1], ?_⟩
        rintro (_ | j) h h'
        · exact ⟨t, by simpa using ht, h2⟩
        · obtain ⟨v, hv, ha⟩ := g2 j (by simpa using h) (by simpa using h')
          exact ⟨v, by simpa [List.append_assoc] using hv, by simpa using ha⟩
    · rintro ⟨hl, hj⟩
      obtain ⟨t, ht, ha⟩ := hj 0 (by simp) (by simp)
      have ht' : ModelFlex.run mem dt (ops ++ ask d) = .ok t := by simpa using ht
      have h1 : (ask d).foldlM ModelFlex.exec s = .ok t := by rw [← run_append h0]; exact ht'
      obtain ⟨u, hu⟩ : ∃ u, simulateIf w.simumea t = .ok u := by
        have := ha.simulated
        unfold simulateIf
        cases hw : w.simumea with
        | false => exact ⟨t, rfl⟩
        | true =>
          obtain ⟨u, hu⟩ := this hw
          exact ⟨u, by simp [exec_simulated, hu]⟩
      have hu' : ModelFlex.run mem dt (ops ++ moment w.simumea d) = .ok u := by
        unfold moment
        rw [← List.append_assoc]
        exact (run_append ht').trans hu
      refine .cons s d l t u q r h1 ha hu ((steps_iff l r _ u hu').2 ⟨by simpa using hl, fun j h h' => ?_⟩)
      obtain ⟨v, hv, ha⟩ := hj (j + 1) (by simpa using h) (by simpa using h')
      exact ⟨v, by simpa [List.append_assoc] using hv, by simpa using ha⟩

end StateObs.Offline
