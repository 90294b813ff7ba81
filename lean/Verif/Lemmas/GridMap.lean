import Verif.Lemmas.Bounds

/-! # Maps between grids that preserve strains up to a signed permutation -/

namespace Verif.Spec.Fe
open Finset

/-- The grid `F'` is an image of `F`: elements, Gauss points and dofs correspond, and a field `w` of
`F'` has the strains `t v * x (π v)`, where `x` are those of the field `σ r * w (rm r)` of `F`. -/
structure Morph (F F' : Fe) (em : Nat × Nat × Nat → Nat × Nat × Nat) (gm rm : Nat → Nat) (σ t : Nat → ℝ)
    (π : Nat → Nat) : Prop where
  npe : F'.npe = F.npe
  nvoi : F'.nvoi = F.nvoi
  em_mem : ∀ e ∈ F.elems, em e ∈ F'.elems
  em_inj : ∀ e ∈ F.elems, ∀ e' ∈ F.elems, em e = em e' → e = e'
  card : F'.elems.card = F.elems.card
  gm_lt : ∀ g, g < F.npe → gm g < F.npe
  gm_inj : ∀ g g', g < F.npe → g' < F.npe → gm g = gm g' → g = g'
  rm_lt : ∀ r, r < F.nn * F.dim → rm r < F'.nn * F'.dim
  rm_inj : ∀ r r', r < F.nn * F.dim → r' < F.nn * F.dim → rm r = rm r' → r = r'
  bd : ∀ r, r < F.nn * F.dim → (F.Bd r ↔ F'.Bd (rm r))
  σ_ne : ∀ r, σ r ≠ 0
  π_lt : ∀ v, v < F.nvoi → π v < F.nvoi
  orth : ∀ x y : Nat → ℝ,
    F.pair (fun v => t v * x (π v)) (fun v => t v * y (π v)) = F.pair x y
  strain : ∀ w : Nat → ℝ, ∀ e ∈ F.elems, ∀ gp, gp < F.npe → ∀ v, v < F.nvoi →
    F'.strain w (em e) (gm gp) v = t v * F.strain (fun r => σ r * w (rm r)) e gp (π v)

variable {F F' : Fe} {em : Nat × Nat × Nat → Nat × Nat × Nat} {gm rm : Nat → Nat} {σ t : Nat → ℝ}
  {π : Nat → Nat}

namespace Morph

theorem integral (m : Morph F F' em gm rm σ t π) (hF : F.Good) (f : Nat × Nat × Nat → Nat → ℝ) :
    F'.integral f = F'.cell / F.cell * F.integral fun e gp => f (em e) (gm gp) := by
  have h1 : ∀ g : Nat × Nat × Nat → ℝ, ∑ e ∈ F'.elems, g e = ∑ e ∈ F.elems, g (em e) := by
    intro g
    have himg : F.elems.image em = F'.elems := by
      refine eq_of_subset_of_card_le (image_subset_iff.mpr m.em_mem) ?_
      rw [card_image_of_injOn (fun a ha b hb h => m.em_inj a ha b hb h), m.card]
    rw [← himg, sum_image fun a ha b hb h => m.em_inj a ha b hb h]
  have h2 : ∀ g : Nat → ℝ, ∑ k ∈ range F.npe, g k = ∑ k ∈ range F.npe, g (gm k) := by
    intro g
    have hinj : Set.InjOn gm (range F.npe : Finset Nat) := fun a ha b hb h =>
      m.gm_inj a b (mem_range.mp ha) (mem_range.mp hb) h
    have himg : (range F.npe).image gm = range F.npe := by
      refine eq_of_subset_of_card_le (image_subset_iff.mpr fun x hx => ?_) ?_
      · exact mem_range.mpr (m.gm_lt x (mem_range.mp hx))
      · rw [card_image_of_injOn hinj]
    conv_lhs => rw [← himg]
    rw [sum_image hinj]
  unfold Fe.integral
  rw [h1, m.npe, mul_sum]
  refine sum_congr rfl fun e _ => ?_
  rw [h2, mul_sum]
  refine sum_congr rfl fun g _ => ?_
  have := (cell_pos hF).ne'
  field_simp

theorem vol (m : Morph F F' em gm rm σ t π) (hF : F.Good) : F'.vol = F'.cell / F.cell * F.vol := by
  have h : ∀ G : Fe, ((G.nx - 1) * (G.ny - 1) * G.layers : Nat) = G.elems.card := by
    intro G
    unfold elems
    simp only [card_product, card_range]
    ring
  unfold Fe.vol
  rw [h, h, m.card]
  have := (cell_pos hF).ne'
  field_simp

/-- Equilibrium is preserved. -/
theorem equil (m : Morph F F' em gm rm σ t π) (hF : F.Good) (hF' : F'.Good)
    {s s' : Nat × Nat × Nat → Nat → Nat → ℝ} {k : ℝ} (hk : k ≠ 0)
    (hs : ∀ e ∈ F.elems, ∀ gp, gp < F.npe → ∀ v, v < F.nvoi →
      s' (em e) (gm gp) v = k * (t v * s e gp (π v))) (h : F'.Equil s') : F.Equil s := by
  intro r hr hb
  have h1 := h (rm r) (m.rm_lt r hr) fun hb' => hb ((m.bd r hr).mpr hb')
  unfold force at h1
  rw [m.integral hF] at h1
  have h2 := (mul_eq_zero.mp h1).resolve_left
    (div_pos (cell_pos hF') (cell_pos hF)).ne'
  have h3 : F.integral (fun e gp => F'.pair (s' (em e) (gm gp))
      (F'.strain (fun q => if q = rm r then 1 else 0) (em e) (gm gp)))
      = k * σ r * F.force s r + 0 * F.force s r := by
    unfold force
    rw [← integral_lin]
    refine integral_congr fun e he gp hg => ?_
    rw [zero_mul, add_zero]
    have e1 : F'.pair (s' (em e) (gm gp)) (F'.strain (fun q => if q = rm r then 1 else 0) (em e) (gm gp))
        = F.pair (fun v => k * (t v * s e gp (π v)) + 0 * 0) (fun v => σ r * (t v *
          F.strain (fun q => if q = r then 1 else 0) e gp (π v)) + 0 * 0) := by
      unfold pair
      rw [m.nvoi]
      refine sum_congr rfl fun v hv => ?_
      have hv := mem_range.mp hv
      rw [hs e he gp hg v hv, m.strain _ e he gp hg v hv]
      have e2 : F.strain (fun q => σ q * if rm q = rm r then 1 else 0) e gp (π v)
          = σ r * F.strain (fun q => if q = r then 1 else 0) e gp (π v) := by
        have e3 := strain_lin (F := F) (fun q => if q = r then 1 else 0) (fun _ => 0) (σ r) 0 e gp (π v)
        simp only [zero_mul, add_zero] at e3
        rw [← e3]
        refine strain_congr hF (fun q hq => ?_) he gp (m.π_lt v hv)
        by_cases hqr : q = r
        · rw [hqr, if_pos rfl, if_pos rfl]
        · rw [if_neg hqr, if_neg fun hh => hqr (m.rm_inj q r hq hr hh), mul_zero, mul_zero]
      rw [e2]
      ring
    rw [e1, pair_comm_left, pair_lin, m.orth, pair_lin]
    have z1 : ∀ x : Nat → ℝ, F.pair (fun _ => 0) x = 0 := fun x => by simp [pair]
    have z2 : ∀ x : Nat → ℝ, F.pair x (fun _ => 0) = 0 := fun x => by simp [pair]
    rw [z1, z2]
    ring
  rw [h3, zero_mul, add_zero] at h2
  exact (mul_eq_zero.mp h2).resolve_left (mul_ne_zero hk (m.σ_ne r))

/-- Averages correspond. -/
theorem ave (m : Morph F F' em gm rm σ t π) (hF : F.Good) (hF' : F'.Good)
    {s s' : Nat × Nat × Nat → Nat → Nat → ℝ} {k : ℝ}
    (hs : ∀ e ∈ F.elems, ∀ gp, gp < F.npe → ∀ v, v < F.nvoi →
      s' (em e) (gm gp) v = k * (t v * s e gp (π v))) {v : Nat} (hv : v < F.nvoi) :
    F'.aveStress s' v = k * (t v * F.aveStress s (π v)) := by
  unfold aveStress
  rw [m.integral hF, m.vol hF, integral_congr (g := fun e gp => k * t v * s e gp (π v) + 0 * 0)
    fun e he gp hg => by rw [hs e he gp hg v hv]; ring, integral_lin]
  have h1 := (cell_pos hF).ne'
  have h2 := (cell_pos hF').ne'
  have h3 := (vol_pos hF).ne'
  field_simp
  ring

theorem aveStress_congr (hF : F.Good) {L : Nat × Nat × Nat → (Nat → ℝ) → Nat → ℝ} (hL : F.Law L) {u w : Nat → ℝ}
    (h : ∀ r, r < F.nn * F.dim → u r = w r) {v : Nat} (hv : v < F.nvoi) :
    F.aveStress (F.stress L u) v = F.aveStress (F.stress L w) v := by
  unfold aveStress
  congr 1
  exact integral_congr fun e he gp _ =>
    hL.cong e he _ _ (fun v hv => strain_congr hF h he gp hv) v hv

/-- Equilibria correspond, and so do their average stresses. -/
theorem response (m : Morph F F' em gm rm σ t π) (hF : F.Good) (hF' : F'.Good)
    {L L' : Nat × Nat × Nat → (Nat → ℝ) → Nat → ℝ} (hL : F.Law L) (hL' : F'.Law L')
    (hiso : ∀ e ∈ F.elems, ∀ x v, v < F.nvoi →
      L' (em e) (fun v => t v * x (π v)) v = t v * L e x (π v))
    {eps u u' tr : Nat → ℝ} (hu : F.OnBd eps u) (he : F.Equil (F.stress L u))
    (he' : F'.Equil (F'.stress L' u'))
    (htr : ∀ e ∈ F.elems, ∀ gp, gp < F.npe → ∀ v, v < F.nvoi →
      F.strain (fun r => σ r * u' (rm r) - tr r) e gp v = F.strain (fun r => σ r * u' (rm r)) e gp v)
    (hb : F.OnBd eps fun r => σ r * u' (rm r) - tr r) :
    (∀ r, r < F.nn * F.dim → u r = σ r * u' (rm r) - tr r) ∧
    ∀ v, v < F.nvoi → F'.aveStress (F'.stress L' u') v = t v * F.aveStress (F.stress L u) (π v) := by
  have hs : ∀ e ∈ F.elems, ∀ gp, gp < F.npe → ∀ v, v < F.nvoi →
      F'.stress L' u' (em e) (gm gp) v
        = 1 * (t v * F.stress L (fun r => σ r * u' (rm r) - tr r) e gp (π v)) := by
    intro e hm gp hg v hv
    rw [one_mul]
    unfold stress
    rw [← hiso e hm _ v hv]
    refine hL'.cong _ (m.em_mem e hm) _ _ (fun v hv => ?_) v (by rw [m.nvoi]; exact hv)
    rw [m.nvoi] at hv
    rw [m.strain _ e hm gp hg v hv, htr e hm gp hg _ (m.π_lt v hv)]
  have h1 := m.equil hF hF' one_ne_zero hs he'
  have h2 := unique hF hL (fun r hr h => (hu r hr h).trans (hb r hr h).symm) he h1
  refine ⟨h2, fun v hv => ?_⟩
  rw [m.ave hF hF' hs hv, one_mul, aveStress_congr hF hL h2 (m.π_lt v hv)]

end Morph

end Verif.Spec.Fe
