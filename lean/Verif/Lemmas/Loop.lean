import Verif.Model.Mem
import Mathlib.Algebra.BigOperators.Group.Finset.Basic
import Mathlib.Algebra.BigOperators.Ring.Finset
import Mathlib.Algebra.BigOperators.Intervals
import Mathlib.Tactic.Ring
import Mathlib.Tactic.Linarith

/-! # Lemmas about loops over buffers -/

namespace Verif

@[simp] theorem M_bind_ok {α β : Type} (a : α) (f : α → M β) :
    (Except.bind (.ok a : M α) f) = f a := rfl
@[simp] theorem M_bind_ok' {α β : Type} (a : α) (f : α → M β) :
    ((.ok a : M α) >>= f) = f a := rfl
@[simp] theorem M_pure {α : Type} (a : α) : (pure a : M α) = .ok a := rfl

theorem M_bind_assoc {α β γ : Type} (x : M α) (f : α → M β) (g : β → M γ) :
    (x.bind f).bind g = x.bind (fun a => (f a).bind g) := by cases x <;> rfl

theorem Buf.read_ok {α : Type} {b : Buf α} {i : Nat} (h : i < b.size) :
    b.read i = .ok (b.val i) := by simp [Buf.read, h]

theorem Buf.write_ok {α : Type} {b : Buf α} {i : Nat} (v : α) (h : i < b.size) :
    b.write i v = .ok ⟨b.size, fun k => if k = i then v else b.val k⟩ := by
  simp [Buf.write, h]

theorem Buf.readI_ok {α : Type} {b : Buf α} {c : Int} (h0 : 0 ≤ c) (h : c < b.size) :
    b.readI c = .ok (b.val c.toNat) := by
  have h1 : c.toNat < b.size := by omega
  simp [Buf.readI, h0, Buf.read, h1]

theorem Buf.readI_nat {α : Type} {b : Buf α} {c : Nat} (h : c < b.size) :
    b.readI (c : Int) = .ok (b.val c) := by
  rw [Buf.readI_ok (by omega) (by omega)]; simp

@[ext] theorem Buf.ext' {α : Type} {a b : Buf α} (h : a.size = b.size)
    (hv : ∀ k, a.val k = b.val k) : a = b := by
  cases a; cases b; simp only at h hv; subst h; congr; funext k; exact hv k

theorem loop_succ {σ : Type} (n : Nat) (f : Nat → σ → M σ) (s : σ) :
    loop (n + 1) f s = (loop n f s).bind (f n) := rfl

/-- Invariant rule for loops that do not fault. -/
theorem loop_inv {σ : Type} {f : Nat → σ → M σ} (P : Nat → σ → Prop) {n : Nat} {s : σ}
    (h0 : P 0 s)
    (hstep : ∀ i s, i < n → P i s → ∃ s', f i s = .ok s' ∧ P (i + 1) s') :
    ∃ s', loop n f s = .ok s' ∧ P n s' := by
  induction n with
  | zero => exact ⟨s, rfl, h0⟩
  | succ n ih =>
    obtain ⟨s1, h1, hp⟩ := ih (fun i s hi => hstep i s (by omega))
    obtain ⟨s2, h2, hp2⟩ := hstep n s1 (by omega) hp
    exact ⟨s2, by rw [loop_succ, h1]; exact h2, hp2⟩

/-- Two loops with the same bodies on the indices visited agree. -/
theorem loop_congr {σ : Type} {f g : Nat → σ → M σ} {n : Nat}
    (h : ∀ i s, i < n → f i s = g i s) (s : σ) : loop n f s = loop n g s := by
  induction n with
  | zero => rfl
  | succ n ih =>
    rw [loop_succ, loop_succ, ih (fun i s hi => h i s (by omega))]
    congr 1; funext s; exact h n s (by omega)

/-- A loop whose body never faults is a pure loop. -/
theorem loop_pure {σ : Type} {f : Nat → σ → M σ} {g : Nat → σ → σ} {n : Nat}
    (h : ∀ i s, i < n → f i s = .ok (g i s)) (s : σ) : loop n f s = .ok (accum n g s) := by
  induction n with
  | zero => rfl
  | succ n ih =>
    rw [loop_succ, ih (fun i s hi => h i s (by omega))]
    exact h n _ (by omega)

theorem accum_sum {n : Nat} (f : Nat → ℝ) (a : ℝ) :
    accum n (fun i s => s + f i) a = a + ∑ i ∈ Finset.range n, f i := by
  induction n with
  | zero => simp [accum]
  | succ n ih => simp [accum, ih, Finset.sum_range_succ, add_assoc]

/-! ## Blocks that overwrite a set of entries with prescribed values -/

/-- `f` never faults on blocks of `N` elements, sets every entry of `S` to `c` and leaves the
other entries alone. -/
def SetTo {α : Type} (N : Nat) (c : Nat → α) (S : Nat → Prop) (f : Buf α → M (Buf α)) : Prop :=
  ∀ v : Buf α, v.size = N → ∃ v', f v = .ok v' ∧ v'.size = N ∧
    (∀ k, S k → v'.val k = c k) ∧ (∀ k, ¬ S k → v'.val k = v.val k)

namespace SetTo
variable {α : Type} {N : Nat} {c : Nat → α}

theorem congr {S T : Nat → Prop} {f : Buf α → M (Buf α)} (h : SetTo N c S f)
    (hST : ∀ k, S k ↔ T k) : SetTo N c T f := by
  have : S = T := by funext k; exact propext (hST k)
  exact this ▸ h

theorem congr_val {S : Nat → Prop} {c' : Nat → α} {f : Buf α → M (Buf α)} (h : SetTo N c S f)
    (hc : ∀ k, S k → c k = c' k) : SetTo N c' S f := by
  intro v hv
  obtain ⟨v', h1, h2, h3, h4⟩ := h v hv
  exact ⟨v', h1, h2, fun k hk => by rw [h3 k hk, hc k hk], h4⟩

theorem write {i : Nat} {x : α} (hi : i < N) (hx : x = c i) :
    SetTo N c (· = i) (fun b => b.write i x) := by
  intro v hv
  refine ⟨_, Buf.write_ok x (by omega), hv, ?_, ?_⟩
  · intro k hk; simp [hk, hx]
  · intro k hk; simp [hk]

theorem skip : SetTo N c (fun _ => False) (fun b => .ok b) := by
  intro v hv; exact ⟨v, rfl, hv, by simp, by simp⟩

theorem bind {S T : Nat → Prop} {f g : Buf α → M (Buf α)} (hf : SetTo N c S f)
    (hg : SetTo N c T g) : SetTo N c (fun k => S k ∨ T k) (fun b => (f b).bind g) := by
  intro v hv
  obtain ⟨v1, h1, s1, a1, b1⟩ := hf v hv
  obtain ⟨v2, h2, s2, a2, b2⟩ := hg v1 s1
  refine ⟨v2, by simp [h1, h2], s2, ?_, ?_⟩
  · intro k hk
    by_cases hT : T k
    · exact a2 k hT
    · rw [b2 k hT]; exact a1 k (hk.resolve_right hT)
  · intro k hk
    rw [b2 k (fun h => hk (Or.inr h)), b1 k (fun h => hk (Or.inl h))]

theorem loop {n : Nat} {S : Nat → Nat → Prop} {f : Nat → Buf α → M (Buf α)}
    (h : ∀ i, i < n → SetTo N c (S i) (f i)) :
    SetTo N c (fun k => ∃ i, i < n ∧ S i k) (Verif.loop n f) := by
  induction n with
  | zero => exact skip.congr (by simp)
  | succ n ih =>
    refine (bind (ih fun i hi => h i (by omega)) (h n (by omega))).congr ?_
    intro k
    constructor
    · rintro (⟨i, hi, hk⟩ | hk)
      · exact ⟨i, by omega, hk⟩
      · exact ⟨n, by omega, hk⟩
    · rintro ⟨i, hi, hk⟩
      by_cases e : i = n
      · exact Or.inr (e ▸ hk)
      · exact Or.inl ⟨i, by omega, hk⟩

theorem loopFrom {a b : Nat} {S : Nat → Nat → Prop} {f : Nat → Buf α → M (Buf α)}
    (h : ∀ i, a ≤ i → i < b → SetTo N c (S i) (f i)) :
    SetTo N c (fun k => ∃ i, a ≤ i ∧ i < b ∧ S i k) (Verif.loopFrom a b f) := by
  refine (loop (S := fun t => S (a + t)) (n := b - a) (f := fun t => f (a + t))
    (fun t ht => h (a + t) (by omega) (by omega))).congr ?_
  intro k
  constructor
  · rintro ⟨t, ht, hk⟩; exact ⟨a + t, by omega, by omega, hk⟩
  · rintro ⟨i, h1, h2, hk⟩
    exact ⟨i - a, by omega, by have : a + (i - a) = i := by omega
                               rw [this]; exact hk⟩

theorem loopList {ι : Type} {l : List ι} {S : ι → Nat → Prop} {f : ι → Buf α → M (Buf α)}
    (h : ∀ i, i ∈ l → SetTo N c (S i) (f i)) :
    SetTo N c (fun k => ∃ i, i ∈ l ∧ S i k) (Verif.loopList l f) := by
  induction l with
  | nil => exact skip.congr (by simp)
  | cons x xs ih =>
    refine (bind (h x (by simp)) (ih fun i hi => h i (by simp [hi]))).congr ?_
    intro k; simp

theorem ite {p : Prop} [Decidable p] {S : Nat → Prop} {f : Buf α → M (Buf α)}
    (h : p → SetTo N c S f) :
    SetTo N c (fun k => p ∧ S k) (ifRun p f) := by
  have e : ifRun p f = fun b => if p then f b else .ok b := rfl
  rw [e]
  by_cases hp : p
  · simpa [hp] using h hp
  · simpa [hp] using skip (N := N) (c := c)

end SetTo

/-! ## Index arithmetic -/

theorem mul_add_inj {b a a' c c' : Nat} (hc : c < b) (hc' : c' < b)
    (h : a * b + c = a' * b + c') : a = a' ∧ c = c' := by
  have hb : 0 < b := by omega
  have h1 : (a * b + c) / b = a := by
    rw [Nat.mul_comm, Nat.mul_add_div hb, Nat.div_eq_of_lt hc]; simp
  have h2 : (a' * b + c') / b = a' := by
    rw [Nat.mul_comm, Nat.mul_add_div hb, Nat.div_eq_of_lt hc']; simp
  have h3 : a = a' := by rw [← h1, ← h2, h]
  subst h3
  exact ⟨rfl, by omega⟩

theorem mul_add_lt {a b c n : Nat} (ha : a < n) (hc : c < b) : a * b + c < n * b := by
  have : (a + 1) * b ≤ n * b := Nat.mul_le_mul_right b ha
  rw [Nat.add_mul] at this; omega

theorem mul_add_div' {a b c : Nat} (hc : c < b) : (a * b + c) / b = a := by
  have hb : 0 < b := by omega
  rw [Nat.mul_comm, Nat.mul_add_div hb, Nat.div_eq_of_lt hc]; simp

theorem mul_add_mod' {a b c : Nat} (hc : c < b) : (a * b + c) % b = c := by
  rw [Nat.mul_comm, Nat.mul_add_mod, Nat.mod_eq_of_lt hc]

end Verif
