import Verif.Lemmas.EllOps

/-! # The loops of the solvers -/

namespace Verif
open Finset

section generic
variable {α : Type}

/-- A loop whose `i`-th trip replaces entry `i` by a function of itself. -/
theorem loop_map {f : Nat → Buf α → M (Buf α)} {g : Nat → α → α} {N n : Nat} (hn : n ≤ N)
    (v : Buf α) (hv : v.size = N)
    (h : ∀ i w, i < n → w.size = N → w.val i = v.val i → f i w = w.write i (g i (w.val i))) :
    loop n f v = .ok ⟨N, fun k => if k < n then g k (v.val k) else v.val k⟩ := by
  induction n with
  | zero =>
    simp only [loop, Nat.not_lt_zero, if_false]
    exact congrArg _ (Buf.ext' hv fun _ => rfl)
  | succ n ih =>
    rw [loop_succ, ih (by omega) (fun i w hi => h i w (by omega)), M_bind_ok,
      h n _ (by omega) rfl (by simp), Buf.write_ok _ (by simp; omega)]
    congr 1
    refine Buf.ext' rfl fun k => ?_
    simp only
    by_cases hk : k = n
    · subst hk; simp
    · by_cases hlt : k < n
      · simp [hk, hlt, Nat.lt_succ_of_lt hlt]
      · have : ¬ k < n + 1 := by omega
        simp [hk, hlt, this]

variable [Scalar α]

/-- The value accumulated by the scalar product loops. -/
def dotA (n : Nat) (a b : Nat → α) : α := accum n (fun i s => s + a i * b i) 0

theorem dotLoop_eq {n : Nat} {a b : Buf α} (ha : n ≤ a.size) (hb : n ≤ b.size) :
    dotLoop n a b = .ok (dotA n a.val b.val) := by
  unfold dotLoop dotA
  refine loop_pure (g := fun i s => s + a.val i * b.val i) (fun i s hi => ?_) 0
  rw [Buf.read_ok (by omega), M_bind_ok', Buf.read_ok (by omega), M_bind_ok']
  rfl

theorem subLoop_eq {N : Nat} {b r : Buf α} (hb : b.size = N) (hr : r.size = N) :
    subLoop N b r = .ok ⟨N, fun i => if i < N then r.val i - b.val i else r.val i⟩ := by
  unfold subLoop
  refine loop_map (g := fun i ri => ri - b.val i) (le_refl N) r hr (fun i w hi hw _ => ?_)
  rw [Buf.read_ok (by omega), M_bind_ok', Buf.read_ok (by omega), M_bind_ok']

theorem mulLoop_eq {N : Nat} {k r z : Buf α} (hk : k.size = N) (hr : r.size = N)
    (hz : z.size = N) :
    mulLoop N k r z = .ok ⟨N, fun i => if i < N then k.val i * r.val i else z.val i⟩ := by
  unfold mulLoop
  refine loop_map (g := fun i _ => k.val i * r.val i) (le_refl N) z hz (fun i w hi hw _ => ?_)
  rw [Buf.read_ok (by omega), M_bind_ok', Buf.read_ok (by omega), M_bind_ok']

theorem copyLoop_eq {N : Nat} {z p : Buf α} (hz : z.size = N) (hp : p.size = N) :
    copyLoop N z p = .ok ⟨N, fun i => if i < N then z.val i else p.val i⟩ := by
  unfold copyLoop
  refine loop_map (g := fun i _ => z.val i) (le_refl N) p hp (fun i w hi hw _ => ?_)
  rw [Buf.read_ok (by omega), M_bind_ok']

theorem xpbyLoop_eq {N : Nat} {beta : α} {z p : Buf α} (hz : z.size = N) (hp : p.size = N) :
    xpbyLoop N beta z p
      = .ok ⟨N, fun i => if i < N then z.val i + beta * p.val i else p.val i⟩ := by
  unfold xpbyLoop
  refine loop_map (g := fun i pi => z.val i + beta * pi) (le_refl N) p hp (fun i w hi hw _ => ?_)
  rw [Buf.read_ok (by omega), M_bind_ok', Buf.read_ok (by omega), M_bind_ok']

theorem stepLoop_eq {N : Nat} {d : α} {p q x r : Buf α} (hp : p.size = N) (hq : q.size = N)
    (hx : x.size = N) (hr : r.size = N) :
    stepLoop N d p q (x, r) = .ok
      (⟨N, fun i => if i < N then x.val i - d * p.val i else x.val i⟩,
       ⟨N, fun i => if i < N then r.val i - d * q.val i else r.val i⟩) := by
  unfold stepLoop
  have key : ∀ n, n ≤ N → loop n (fun i (xr : Buf α × Buf α) => do
      let xi ← xr.1.read i
      let pi ← p.read i
      let x ← xr.1.write i (xi - d * pi)
      let ri ← xr.2.read i
      let qi ← q.read i
      let r ← xr.2.write i (ri - d * qi)
      pure (x, r)) (x, r) = .ok
      (⟨N, fun i => if i < n then x.val i - d * p.val i else x.val i⟩,
       ⟨N, fun i => if i < n then r.val i - d * q.val i else r.val i⟩) := by
    intro n hn
    induction n with
    | zero =>
      simp only [loop, Nat.not_lt_zero, if_false]
      congr 1
      exact Prod.ext (Buf.ext' hx fun _ => rfl) (Buf.ext' hr fun _ => rfl)
    | succ n ih =>
      rw [loop_succ, ih (by omega), M_bind_ok]
      simp only
      rw [Buf.read_ok (by simp; omega), M_bind_ok', Buf.read_ok (by omega), M_bind_ok',
        Buf.write_ok _ (by simp; omega), M_bind_ok', Buf.read_ok (by simp; omega), M_bind_ok',
        Buf.read_ok (by omega), M_bind_ok', Buf.write_ok _ (by simp; omega), M_bind_ok']
      show Except.ok _ = Except.ok _
      congr 1
      refine Prod.ext (Buf.ext' rfl fun k => ?_) (Buf.ext' rfl fun k => ?_)
      all_goals
        simp only
        by_cases hk : k = n
        · subst hk; simp
        · by_cases hlt : k < n
          · simp [hk, hlt, Nat.lt_succ_of_lt hlt]
          · have : ¬ k < n + 1 := by omega
            simp [hk, hlt, this]
  exact key N (le_refl N)

/-- Buffer sizes of the solver state. -/
structure CgState.WF (s : CgState α) (n : Nat) : Prop where
  x : s.x.size = n
  r : s.r.size = n
  z : s.z.size = n
  p : s.p.size = n
  q : s.q.size = n

theorem cgErr_eq {m : Ell α} {s : CgState α} (hs : s.WF m.nrow) :
    cgErr m s = .ok (Scalar.sqrt (dotA m.nrow s.r.val s.r.val)) := by
  unfold cgErr
  rw [dotLoop_eq (by rw [hs.r]) (by rw [hs.r]), M_bind_ok']
  rfl

/-- One CG step in closed form. -/
structure CgStep (m : Ell α) (k : Nat → α) (s s' : CgState α) (err : α) : Prop where
  wf : s'.WF m.nrow
  its : s'.its = s.its + 1
  err : s'.err = err
  z : ∀ i, i < m.nrow → s'.z.val i = k i * s.r.val i
  rho : s'.rho0 = dotA m.nrow s.r.val s'.z.val
  p : ∀ i, i < m.nrow → s'.p.val i =
    if s.its = 0 then s'.z.val i else s'.z.val i + s'.rho0 / s.rho0 * s.p.val i
  q : ∀ i, i < m.nrow → s'.q.val i = rowAcc m s'.p.val i
  x : ∀ i, i < m.nrow → s'.x.val i =
    s.x.val i - s'.rho0 / dotA m.nrow s'.p.val s'.q.val * s'.p.val i
  r : ∀ i, i < m.nrow → s'.r.val i =
    s.r.val i - s'.rho0 / dotA m.nrow s'.p.val s'.q.val * s'.q.val i

theorem cgBody_spec {m : Ell α} (hm : m.WF) {k : Buf α} (hk : k.size = m.nrow) {s : CgState α}
    (hs : s.WF m.nrow) (err : α) :
    ∃ s', cgBody m k s err = .ok s' ∧ CgStep m k.val s s' err := by
  unfold cgBody
  rw [mulLoop_eq hk hs.r hs.z, M_bind_ok']
  rw [dotLoop_eq (by rw [hs.r]) (by simp), M_bind_ok']
  have hp : ∃ p' : Buf α, p'.size = m.nrow ∧
      (∀ (beta : α) (z : Buf α), z.size = m.nrow → ∃ p' : Buf α, p'.size = m.nrow ∧
        cgDir m.nrow s.its beta z s.p = .ok p' ∧
        ∀ i, i < m.nrow → p'.val i = if s.its = 0 then z.val i else z.val i + beta * s.p.val i) := by
    refine ⟨s.p, hs.p, fun beta z hz => ?_⟩
    unfold cgDir
    by_cases h0 : s.its = 0
    · simp only [h0, if_true]
      exact ⟨_, rfl, copyLoop_eq hz hs.p, fun i hi => by simp [hi]⟩
    · simp only [h0, if_false]
      exact ⟨_, rfl, xpbyLoop_eq hz hs.p, fun i hi => by simp [hi]⟩
  obtain ⟨-, -, hp⟩ := hp
  obtain ⟨p, hps, hpe, hpv⟩ := hp
    (dotA m.nrow s.r.val (fun i => if i < m.nrow then k.val i * s.r.val i else s.z.val i) / s.rho0)
    ⟨m.nrow, fun i => if i < m.nrow then k.val i * s.r.val i else s.z.val i⟩ rfl
  simp only
  rw [hpe, M_bind_ok', ellMvp2D_eq hm hps hs.q, M_bind_ok',
    dotLoop_eq (by rw [hps]) (by simp), M_bind_ok', stepLoop_eq hps rfl hs.x hs.r, M_bind_ok']
  refine ⟨_, rfl, ⟨rfl, rfl, rfl, hps, rfl⟩, rfl, rfl, ?_, rfl, ?_, ?_, ?_, ?_⟩
  · intro i hi; simp [hi]
  · intro i hi; simpa using hpv i hi
  · intro i hi; simp [hi]
  · intro i hi; simp [hi]
  · intro i hi; simp [hi]

end generic

theorem dotA_real (n : Nat) (a b : Nat → ℝ) : dotA n a b = ∑ i ∈ range n, a i * b i := by
  unfold dotA
  rw [accum_sum, zero_add]

end Verif
