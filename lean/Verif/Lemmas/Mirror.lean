import Verif.Spec.Symmetry
import Verif.Lemmas.GridMap

/-! # Reflections and permutations of the axes of a grid -/

namespace Verif.Spec
open Finset

/-! ## Corners -/

/-- The corner at a given position. -/
def cornerAt (b0 b1 b2 : Nat) : Nat :=
  (if b0 = 0 then if b1 = 0 then 0 else 3 else if b1 = 0 then 1 else 2) + 4 * b2

theorem corner_cornerAt {b : Nat → Nat} (hb : ∀ k, k < 3 → b k ≤ 1) {k : Nat} (hk : k < 3) :
    corner k (cornerAt (b 0) (b 1) (b 2)) = b k := by
  have h0 := hb 0 (by omega)
  have h1 := hb 1 (by omega)
  have h2 := hb 2 (by omega)
  have key : ∀ b0, b0 ≤ 1 → ∀ b1, b1 ≤ 1 → ∀ b2, b2 ≤ 1 → corner 0 (cornerAt b0 b1 b2) = b0 ∧
      corner 1 (cornerAt b0 b1 b2) = b1 ∧ corner 2 (cornerAt b0 b1 b2) = b2 := by decide
  obtain ⟨k0, k1, k2⟩ := key _ h0 _ h1 _ h2
  interval_cases k <;> assumption

theorem corner_inj : ∀ a, a < 8 → ∀ a', a' < 8 → (∀ k, k < 3 → corner k a = corner k a') → a = a' := by
  decide

theorem corner_two {a : Nat} (ha : a < 4) : corner 2 a = 0 := by
  unfold corner cornerZ; simp; omega

namespace AxisMap
variable {a : AxisMap} {dim : Nat}

theorem sign_sq (a : AxisMap) (k : Nat) : a.sign k * a.sign k = 1 := by
  unfold sign; split <;> norm_num

theorem sign_ne (a : AxisMap) (k : Nat) : a.sign k ≠ 0 := by
  unfold sign; split <;> norm_num

theorem Ok.inj (h : a.Ok dim) {k k' : Nat} (hk : k < 3) (hk' : k' < 3) (e : a.p k = a.p k') : k = k' := by
  rw [← h.qp k hk, ← h.qp k' hk', e]

theorem Ok.lt_dim (h : a.Ok dim) (hd : dim = 2 ∨ dim = 3) {k : Nat} (hk : k < dim) : a.p k < dim := by
  rcases hd with hd | hd
  · have h1 := h.lt k (by omega)
    have h2 : a.p k ≠ 2 := fun e => by
      have := h.inj (k := k) (k' := 2) (by omega) (by omega) (by rw [e, (h.two hd).1])
      omega
    omega
  · have := h.lt k (by omega); omega

theorem Ok.qlt_dim (h : a.Ok dim) (hd : dim = 2 ∨ dim = 3) {k : Nat} (hk : k < dim) : a.q k < dim := by
  rcases hd with hd | hd
  · have h1 := h.qlt k (by omega)
    have h2 : a.q k ≠ 2 := fun e => by
      have := h.pq k (by omega)
      rw [e, (h.two hd).1] at this
      omega
    omega
  · have := h.qlt k (by omega); omega

/-- The image of a corner. -/
def corn (a : AxisMap) (x : Nat) : Nat :=
  let b := fun k => if a.flip k then 1 - corner (a.p k) x else corner (a.p k) x
  cornerAt (b 0) (b 1) (b 2)

theorem corner_corn (h : a.Ok dim) {x k : Nat} (hx : x < 8) (hk : k < 3) :
    corner k (a.corn x) = if a.flip k then 1 - corner (a.p k) x else corner (a.p k) x := by
  unfold corn
  refine corner_cornerAt (b := fun k => if a.flip k then 1 - corner (a.p k) x else corner (a.p k) x)
    (fun k hk => ?_) hk
  have := Fe.corner_le (k := a.p k) hx
  beta_reduce
  split <;> omega

theorem sgn_corn (h : a.Ok dim) {x k : Nat} (hx : x < 8) (hk : k < 3) :
    sgn k (a.corn x) = a.sign k * sgn (a.p k) x := by
  have := Fe.corner_le (k := a.p k) hx
  unfold sgn sign
  rw [corner_corn h hx hk]
  split
  · push_cast [this]; ring
  · ring

theorem corn_lt (h : a.Ok dim) (hd : dim = 2 ∨ dim = 3) {x n : Nat} (hn : n = if dim = 2 then 4 else 8)
    (hx : x < n) : a.corn x < n := by
  have h8 : x < 8 := by subst hn; split at hx <;> omega
  have hc : ∀ k, (if a.flip k then 1 - corner (a.p k) x else corner (a.p k) x) ≤ 1 := fun k => by
    have := Fe.corner_le (k := a.p k) h8
    split <;> omega
  have key : ∀ b0, b0 ≤ 1 → ∀ b1, b1 ≤ 1 → ∀ b2, b2 ≤ 1 → cornerAt b0 b1 b2 < 4 + 4 * b2 := by decide
  have h1 := key _ (hc 0) _ (hc 1) _ (hc 2)
  have h2 := hc 2
  have h3 : a.corn x < 4 + 4 * (if a.flip 2 then 1 - corner (a.p 2) x else corner (a.p 2) x) := h1
  rcases hd with hd | hd
  · rw [if_pos hd] at hn
    rw [(h.two hd).1, (h.two hd).2, corner_two (by omega)] at h3
    simp at h3
    omega
  · rw [if_neg (by omega)] at hn
    omega

theorem corn_inj (h : a.Ok dim) {x y : Nat} (hx : x < 8) (hy : y < 8) (e : a.corn x = a.corn y) : x = y := by
  refine corner_inj x hx y hy fun k hk => ?_
  have h1 := corner_corn h hx (h.qlt k hk)
  have h2 := corner_corn h hy (h.qlt k hk)
  rw [e, h2, h.pq k hk] at h1
  have := Fe.corner_le (k := k) hx
  have := Fe.corner_le (k := k) hy
  split at h1 <;> omega

/-! ## Components -/

theorem vix_comm (i j : Nat) : vix dim i j = vix dim j i := by
  unfold vix
  by_cases h : i = j
  · rw [if_pos h, if_pos h.symm, h]
  · rw [if_neg h, if_neg (Ne.symm h), Nat.add_comm]

/-- A symmetric function of the axes of a component. -/
theorem vix_axes (hd : dim = 2 ∨ dim = 3) {i j : Nat} (hi : i < dim) (hj : j < dim) {α : Type}
    (f : Nat → Nat → α) (hf : ∀ i j, f i j = f j i) :
    f (fst dim (vix dim i j)) (snd dim (vix dim i j)) = f i j := by
  rcases hd with rfl | rfl
  · interval_cases i <;> interval_cases j <;> simp [vix, fst, snd]
    exact hf 0 1
  · interval_cases i <;> interval_cases j <;> simp [vix, fst, snd]
    · exact hf 0 1
    · exact hf 0 2
    · exact hf 1 2

theorem vix_lt (hd : dim = 2 ∨ dim = 3) {i j n : Nat} (hn : n = if dim = 2 then 3 else 6) (hi : i < dim)
    (hj : j < dim) : vix dim i j < n := by
  rcases hd with rfl | rfl <;> simp at hn <;> subst hn <;>
    interval_cases i <;> interval_cases j <;> simp [vix]

theorem fst_lt (hd : dim = 2 ∨ dim = 3) (v : Nat) : fst dim v < dim := by
  unfold fst; split
  · assumption
  · split
    · omega
    · split <;> omega

theorem snd_lt (hd : dim = 2 ∨ dim = 3) {v n : Nat} (hn : n = if dim = 2 then 3 else 6) (hv : v < n) :
    snd dim v < dim := by
  unfold snd
  rcases hd with rfl | rfl <;> simp at hn <;> subst hn <;> interval_cases v <;> simp

theorem vix_fst_snd (hd : dim = 2 ∨ dim = 3) {v n : Nat} (hn : n = if dim = 2 then 3 else 6) (hv : v < n) :
    vix dim (fst dim v) (snd dim v) = v := by
  rcases hd with rfl | rfl <;> simp at hn <;> subst hn <;> interval_cases v <;> simp [vix, fst, snd]

theorem voigt_vix (hd : dim = 2 ∨ dim = 3) {i j : Nat} (hi : i < dim) (hj : j < dim)
    (G : Nat → Nat → ℝ) : voigt dim G (vix dim i j) = if i = j then G i i else G i j + G j i := by
  rcases hd with rfl | rfl <;> interval_cases i <;> interval_cases j <;> simp [vix, voigt, add_comm]

theorem fst_eq_snd (hd : dim = 2 ∨ dim = 3) {v n : Nat} (hn : n = if dim = 2 then 3 else 6) (hv : v < n) :
    fst dim v = snd dim v ↔ v < dim := by
  rcases hd with rfl | rfl <;> simp at hn <;> subst hn <;> interval_cases v <;> simp [fst, snd]

theorem voigt_axes (hd : dim = 2 ∨ dim = 3) {v n : Nat} (hn : n = if dim = 2 then 3 else 6) (hv : v < n)
    (G : Nat → Nat → ℝ) : voigt dim G v = if v < dim then G v v
      else G (fst dim v) (snd dim v) + G (snd dim v) (fst dim v) := by
  rcases hd with rfl | rfl <;> simp at hn <;> subst hn <;> interval_cases v <;> simp [fst, snd, voigt]

theorem comp_lt (h : a.Ok dim) (hd : dim = 2 ∨ dim = 3) {v n : Nat} (hn : n = if dim = 2 then 3 else 6)
    (hv : v < n) : a.comp dim v < n :=
  vix_lt hd hn (h.lt_dim hd (fst_lt hd v)) (h.lt_dim hd (snd_lt hd hn hv))

theorem csign_sq (a : AxisMap) (v : Nat) : a.csign dim v * a.csign dim v = 1 := by
  unfold csign
  have h1 := a.sign_sq (fst dim v)
  have h2 := a.sign_sq (snd dim v)
  calc _ = (a.sign (fst dim v) * a.sign (fst dim v)) * (a.sign (snd dim v) * a.sign (snd dim v)) := by ring
    _ = 1 := by rw [h1, h2, one_mul]

/-- Components of the image of a gradient. -/
theorem voigt_image (h : a.Ok dim) (hd : dim = 2 ∨ dim = 3) {v n : Nat}
    (hn : n = if dim = 2 then 3 else 6) (hv : v < n) {G G' : Nat → Nat → ℝ}
    (hG : ∀ i j, i < dim → j < dim → G' i j = a.sign i * a.sign j * G (a.p i) (a.p j)) :
    voigt dim G' v = a.csign dim v * voigt dim G (a.comp dim v) := by
  have h1 := fst_lt hd (dim := dim) v
  have h2 := snd_lt hd hn hv
  rw [voigt_axes hd hn hv, comp, voigt_vix hd (h.lt_dim hd h1) (h.lt_dim hd h2)]
  unfold csign
  by_cases hvd : v < dim
  · have e := (fst_eq_snd hd hn hv).mpr hvd
    have e1 : fst dim v = v := by unfold fst; rw [if_pos hvd]
    rw [if_pos hvd, ← e, if_pos rfl, e1, hG v v hvd hvd]
  · have hne : a.p (fst dim v) ≠ a.p (snd dim v) := fun e =>
      hvd ((fst_eq_snd hd hn hv).mp (h.inj (by rcases hd with rfl | rfl <;> omega)
        (by rcases hd with rfl | rfl <;> omega) e))
    rw [if_neg hvd, if_neg hne, hG _ _ h1 h2, hG _ _ h2 h1]
    ring

theorem comp_inj (h : a.Ok dim) (hd : dim = 2 ∨ dim = 3) {v v' n : Nat}
    (hn : n = if dim = 2 then 3 else 6) (hv : v < n) (hv' : v' < n) (e : a.comp dim v = a.comp dim v') :
    v = v' := by
  have h1 := fst_lt hd (dim := dim) v
  have h2 := snd_lt hd hn hv
  have h1' := fst_lt hd (dim := dim) v'
  have h2' := snd_lt hd hn hv'
  -- the component of the inverse images of the axes
  let f : Nat → Nat → Nat := fun i j => vix dim (a.q i) (a.q j)
  have key : ∀ w, w < n → f (fst dim (a.comp dim w)) (snd dim (a.comp dim w)) = w := by
    intro w hw
    have g1 := fst_lt hd (dim := dim) w
    have g2 := snd_lt hd hn hw
    unfold comp
    rw [vix_axes hd (h.lt_dim hd g1) (h.lt_dim hd g2) f fun i j => vix_comm _ _]
    show vix dim (a.q (a.p (fst dim w))) (a.q (a.p (snd dim w))) = w
    rw [h.qp _ (by rcases hd with rfl | rfl <;> omega), h.qp _ (by rcases hd with rfl | rfl <;> omega)]
    exact vix_fst_snd hd hn hw
  rw [← key v hv, ← key v' hv', e]

/-- Components of the symmetric gradient of the image of a strain. -/
theorem symGrad_image (h : a.Ok dim) (hd : dim = 2 ∨ dim = 3) {F F' : Fe} (hF : F.dim = dim)
    (hF' : F'.dim = dim) {n : Nat} (hn : n = if dim = 2 then 3 else 6) {eps eps' : Nat → ℝ}
    (he : ∀ v, v < n → eps' v = a.image dim eps v) {i j : Nat} (hi : i < dim) (hj : j < dim) :
    F'.symGrad eps' i j = a.sign i * a.sign j * F.symGrad eps (a.p i) (a.p j) := by
  have hs : ∀ (G : Fe) (x : Nat → ℝ) (i j : Nat), G.dim = dim →
      G.symGrad x i j = if i = j then x (vix dim i j) else x (vix dim i j) / 2 := by
    intro G x i j hG
    unfold Fe.symGrad vix
    rw [hG]
    split <;> rfl
  have h3 : eps' (vix dim i j) = a.sign i * a.sign j * eps (vix dim (a.p i) (a.p j)) := by
    rw [he _ (vix_lt hd hn hi hj)]
    unfold image csign comp
    rw [vix_axes hd hi hj (fun i j => a.sign i * a.sign j) fun i j => mul_comm _ _,
      vix_axes hd hi hj (fun i j => vix dim (a.p i) (a.p j)) fun i j => vix_comm _ _]
  rw [hs F' _ _ _ hF', hs F _ _ _ hF, h3]
  by_cases hij : i = j
  · rw [if_pos hij, if_pos (by rw [hij])]
  · rw [if_neg hij, if_neg fun e => hij (h.inj (by rcases hd with rfl | rfl <;> omega)
      (by rcases hd with rfl | rfl <;> omega) e)]
    ring

end AxisMap

end Verif.Spec
