import Verif.EKF.Model
import Verif.Kalman.LinProps
/-! # Lemmas on the extended filter -/

namespace StateObs.EKF
open StateObs KF Matrix KFSpec

theorem ekf_keeps : KeepsFilter virt where
  pred := by
    intro s s' k h
    simp only [virt, prediction] at h
    split_ifs at h with h1 h2
    · simp only [Res.bind_eq_ok] at h
      obtain ⟨u, -, h⟩ := h
      cases hf : s.st.ext.f with
      | none => rw [hf] at h; simp at h
      | some f =>
        cases hx : s.x with
        | none => rw [hf, hx] at h; simp at h
        | some q =>
          rw [hf, hx] at h
          simp only [Res.bind_eq_ok] at h
          obtain ⟨v, -, h⟩ := h
          cases h
          rw [← hx]
          exact ⟨_, _, rfl⟩
    · simp only [Res.ok_bind] at h
      cases hf : s.st.ext.f with
      | none => rw [hf] at h; simp at h
      | some f =>
        cases hx : s.x with
        | none => rw [hf, hx] at h; simp at h
        | some q =>
          rw [hf, hx] at h
          simp only [Res.bind_eq_ok] at h
          obtain ⟨v, -, h⟩ := h
          cases h
          rw [← hx]
          exact ⟨_, _, rfl⟩
    · cases h
      exact ⟨s.st.xbar, s.st.ext, rfl⟩
  sens := by
    intro s s' k h
    simp only [virt, predictSensor] at h
    split_ifs at h with h1
    · simp only [Res.bind_eq_ok] at h
      obtain ⟨xb, -, ⟨y, u⟩, -, h⟩ := h
      cases h
      exact ⟨_, _, rfl⟩
    · cases h
      exact ⟨s.st.ybar, s.st.ext, rfl⟩

theorem cols_ok {α : Type} : ∀ (n : ℕ) (f : Fin n → Res α) (g : Fin n → α), (∀ i, f i = .ok (g i)) → cols n f = .ok g
  | 0, f, g, _ => by
    simp only [cols, Res.ok.injEq]
    funext i; exact i.elim0
  | n + 1, f, g, h => by
    simp only [cols, h 0, Res.ok_bind, cols_ok n (fun i => f i.succ) (fun i => g i.succ) (fun i => h i.succ)]
    simp only [Res.ok.injEq]
    funext i
    refine Fin.cases ?_ (fun i => ?_) i <;> simp

theorem cols_eq_ok {α : Type} : ∀ (n : ℕ) (f : Fin n → Res α) (g : Fin n → α), cols n f = .ok g → ∀ i, f i = .ok (g i)
  | 0, f, g, _ => fun i => i.elim0
  | n + 1, f, g, h => by
    simp only [cols, Res.bind_eq_ok] at h
    obtain ⟨a, h0, r, h1, h2⟩ := h
    have := Res.ok.inj h2
    subst this
    intro i
    refine Fin.cases ?_ (fun i => ?_) i
    · simpa using h0
    · simpa using cols_eq_ok n _ r h1 i

theorem notCached_of_lt {v : Option (DVec × Int)} {k : Int} (h : ∀ x t, v = some (x, t) → t < k) : notCached v k = true := by
  cases v with
  | none => rfl
  | some q =>
    obtain ⟨x, t⟩ := q
    have := h x t rfl
    simp only [notCached, decide_eq_true_eq]
    omega

@[simp] theorem notCached_self (v : DVec) (k : Int) : notCached (some (v, k)) k = false := by simp [notCached]

end StateObs.EKF
