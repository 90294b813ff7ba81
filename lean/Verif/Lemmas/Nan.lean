import Verif.Spec.Ieee
import Verif.Lemmas.FpCell

/-! # Propagation of NaN -/

namespace Verif
open Spec

namespace Spec.Dbl
variable {fp : Range}

theorem eq_nan {a : Dbl fp} (h : Scalar.isNaN a = true) : a = .nan := by
  cases a with
  | nan => rfl
  | fin => cases h
  | inf => cases h

instance : NanLaws (Dbl fp) where
  add_left a b h := by rw [eq_nan h]; cases b <;> rfl
  add_right a b h := by rw [eq_nan h]; cases a <;> rfl
  sub_left a b h := by rw [eq_nan h]; cases b <;> rfl
  sub_right a b h := by rw [eq_nan h]; cases a <;> rfl
  mul_left a b h := by rw [eq_nan h]; cases b <;> rfl
  mul_right a b h := by rw [eq_nan h]; cases a <;> rfl
  div_left a b h := by rw [eq_nan h]; cases b <;> rfl
  div_right a b h := by rw [eq_nan h]; cases a <;> rfl
  neg a h := by rw [eq_nan h]; rfl
  sqrt a h := by rw [eq_nan h]; rfl
  lt_left a b h := by rw [eq_nan h]; cases b <;> rfl
  lt_right a b h := by rw [eq_nan h]; cases a <;> rfl

end Spec.Dbl

variable {α : Type} [Scalar α] [NanLaws α]

/-- Not a number. -/
def IsNan {α : Type} [Scalar α] (a : α) : Prop := Scalar.isNaN a = true

namespace IsNan
variable {a b : α}

theorem add_l (h : IsNan a) (b : α) : IsNan (a + b) := NanLaws.add_left _ _ h
theorem add_r (a : α) (h : IsNan b) : IsNan (a + b) := NanLaws.add_right _ _ h
theorem sub_l (h : IsNan a) (b : α) : IsNan (a - b) := NanLaws.sub_left _ _ h
theorem sub_r (a : α) (h : IsNan b) : IsNan (a - b) := NanLaws.sub_right _ _ h
theorem mul_l (h : IsNan a) (b : α) : IsNan (a * b) := NanLaws.mul_left _ _ h
theorem mul_r (a : α) (h : IsNan b) : IsNan (a * b) := NanLaws.mul_right _ _ h
theorem div_l (h : IsNan a) (b : α) : IsNan (a / b) := NanLaws.div_left _ _ h
theorem neg (h : IsNan a) : IsNan (-a) := NanLaws.neg _ h
theorem sqrt (h : IsNan a) : IsNan (Scalar.sqrt a) := NanLaws.sqrt _ h
theorem lt_l (h : IsNan a) (b : α) : Scalar.lt a b = false := NanLaws.lt_left _ _ h
theorem lt_r (a : α) (h : IsNan b) : Scalar.lt a b = false := NanLaws.lt_right _ _ h

end IsNan

/-- A property of the state of a pure loop that one trip establishes and every trip keeps. -/
theorem accum_at {σ : Type} {P : σ → Prop} {n : Nat} {f : Nat → σ → σ} {s : σ} {k : Nat} (hk : k < n)
    (h1 : ∀ s, P (f k s)) (h2 : ∀ i s, i < n → P s → P (f i s)) : P (accum n f s) := by
  induction n with
  | zero => omega
  | succ n ih =>
    rw [accum]
    by_cases h : k = n
    · subst h; exact h1 _
    · exact h2 n _ (by omega) (ih (by omega) fun i s hi => h2 i s (by omega))

/-- A property of the state that every trip keeps. -/
theorem accum_keep {σ : Type} {P : σ → Prop} {n : Nat} {f : Nat → σ → σ} {s : σ} (h0 : P s)
    (h2 : ∀ i s, i < n → P s → P (f i s)) : P (accum n f s) := by
  induction n with
  | zero => exact h0
  | succ n ih => rw [accum]; exact h2 n _ (by omega) (ih fun i s hi => h2 i s (by omega))

theorem accum_nan {n : Nat} {f : Nat → α} {s : α} {k : Nat} (hk : k < n) (h : IsNan (f k)) :
    IsNan (accum n (fun i s => s + f i) s) :=
  accum_at (P := IsNan) hk (fun s => h.add_r s) fun i s _ hs => hs.add_l _

theorem dotA_nan {n : Nat} {a b : Nat → α} {k : Nat} (hk : k < n) (h : IsNan (a k)) : IsNan (dotA n a b) :=
  accum_nan (f := fun i => a i * b i) hk (h.mul_l _)

theorem normOf_nan {n : Nat} {f : Nat → α} {k : Nat} (hk : k < n) (h : IsNan (f k)) : IsNan (normOf n f) :=
  (accum_nan (f := fun i => f i * f i) hk (h.mul_l _)).sqrt

variable {c : Cfg α} {u : Nat → α} {vo : Buf α}

theorem strain3_nan {ex ey ez i : Nat} (hi : i < 24) (h : IsNan (u (edof3 c.nx c.ny ex ey ez i))) (gp v : Nat) :
    IsNan (strain3 c u ex ey ez gp v) :=
  accum_nan (f := fun i => bmat3D c.dx c.dy c.dz gp v i * u (edof3 c.nx c.ny ex ey ez i)) hi (h.mul_r _)

theorem strain2_nan {ex ey i : Nat} (hi : i < 8) (h : IsNan (u (edof2 c.nx ex ey i))) (gp v : Nat) :
    IsNan (strain2 c u ex ey gp v) :=
  accum_nan (f := fun i => bmat2D c.dx c.dy gp v i * u (edof2 c.nx ex ey i)) hi (h.mul_r _)

theorem plasticStep_nan {m : Material α} {eps p : Nat → α} {a : α} (h : ∀ v, IsNan (eps v)) :
    (plasticStep m eps p a).nl = false ∧ ∀ v, IsNan ((plasticStep m eps p a).stress v) := by
  have hd : ∀ v, IsNan (devTensor eps v) := fun v => by
    unfold devTensor
    split
    · exact (h v).sub_l _
    · exact h v
  have hs : ∀ v, IsNan (sigTrial m eps p v) := fun v => by
    unfold sigTrial
    split
    · exact ((hd v).sub_l _).mul_r _
    · exact ((hd v).sub_l _).mul_r _
  have hn : IsNan (sigNorm (sigTrial m eps p)) := by
    unfold sigNorm
    exact ((((((hs 0).mul_l _).add_l _).add_l _).add_l _).add_l _ |>.add_l _).sqrt
  have hf : IsNan (fTrial m eps p a) := hn.sub_l _
  unfold plasticStep
  simp only
  rw [if_neg (by rw [hf.lt_r]; exact Bool.false_ne_true)]
  refine ⟨rfl, fun v => ?_⟩
  show IsNan (plasticStress m eps (sigTrial m eps p) 0 (fun _ => 0) v)
  unfold plasticStress
  refine IsNan.sub_l ?_ _
  split
  · exact (hs v).add_l _
  · exact hs v

theorem sig3_nan {m : Material α} {e gp : Nat} {eps : Nat → α} (h : ∀ v, IsNan (eps v)) (v : Nat) :
    IsNan (sig3 m vo e gp eps v) := by
  unfold sig3
  split
  · exact (plasticStep_nan h).2 v
  · unfold elasticStress3D
    split
    · exact ((h v).mul_r _).add_r _
    · exact (h v).mul_r _

theorem nl3_nan {m : Material α} {e gp : Nat} {eps : Nat → α} (h : ∀ v, IsNan (eps v)) :
    nl3 m vo e gp eps = false := by
  unfold nl3
  split
  · exact (plasticStep_nan h).1
  · rfl

theorem sig2_nan {m : Material α} {eps : Nat → α} (h : ∀ v, IsNan (eps v)) (v : Nat) : IsNan (sig2 m eps v) :=
  accum_nan (f := fun j => ctan2D m v j * eps j) (k := 0) (by omega) ((h 0).mul_r _)

/-- An element with a NaN among its displacements. -/
def Cfg.HitElem (c : Cfg α) (u : Nat → α) (ex ey ez : Nat) : Prop :=
  if c.dim = 2 then ∃ i, i < 8 ∧ IsNan (u (edof2 c.nx ex ey i))
  else ∃ i, i < 24 ∧ IsNan (u (edof3 c.nx c.ny ex ey ez i))

theorem gpSig_nan (hd : c.dim = 3) {ex ey ez : Nat} (h : c.HitElem u ex ey ez) (gp v : Nat) :
    IsNan (gpSig c u vo ex ey ez gp v) := by
  unfold Cfg.HitElem at h
  rw [if_neg (by omega)] at h
  obtain ⟨i, hi, h⟩ := h
  exact sig3_nan (fun v => strain3_nan hi h gp v) v

theorem gpNl_nan (hd : c.dim = 3) {ex ey ez : Nat} (h : c.HitElem u ex ey ez) (gp : Nat) :
    gpNl c u vo ex ey ez gp = false := by
  unfold Cfg.HitElem at h
  rw [if_neg (by omega)] at h
  obtain ⟨i, hi, h⟩ := h
  exact nl3_nan (fun v => strain3_nan hi h gp v)

theorem elemRhs3_nan (hd : c.dim = 3) {ex ey ez : Nat} (h : c.HitElem u ex ey ez) (i : Nat) :
    IsNan (elemRhs3 c u vo ex ey ez i) := by
  unfold elemRhs3
  refine accum_at (P := fun b : Nat → α => IsNan (b i)) (k := 0) (by omega) (fun b => ?_) (fun gp b _ hb => ?_)
  · exact accum_nan (f := fun j => bmat3D c.dx c.dy c.dz 0 j i * gpSig c u vo ex ey ez 0 j * wg3D c) (k := 0)
      (by omega) (((gpSig_nan hd h 0 0).mul_r _).mul_l _)
  · exact accum_keep (P := IsNan) hb fun j s _ hs => hs.add_l _

theorem elemRhs2_nan (hd : c.dim = 2) {ex ey : Nat} (h : c.HitElem u ex ey 0) (i : Nat) :
    IsNan (elemRhs2 c u ex ey i) := by
  unfold Cfg.HitElem at h
  rw [if_pos hd] at h
  obtain ⟨i', hi, h⟩ := h
  unfold elemRhs2
  refine accum_at (P := fun b : Nat → α => IsNan (b i)) (k := 0) (by omega) (fun b => ?_) (fun gp b _ hb => ?_)
  · exact accum_nan (f := fun j => bmat2D c.dx c.dy 0 j i * sig2 (matOf c (c.el ex ey 0)) (strain2 c u ex ey 0) j
      * wg2D c) (k := 0) (by omega) (((sig2_nan (fun v => strain2_nan hi h 0 v) 0).mul_r _).mul_l _)
  · exact accum_keep (P := IsNan) hb fun j s _ hs => hs.add_l _

theorem scatterVal_keep {n : Nat} {index : Nat → Nat} {be f : Nat → α} {q : Nat} (h : IsNan (f q)) :
    IsNan (scatterVal n index be f q) := by
  unfold scatterVal
  refine accum_keep (P := fun f : Nat → α => IsNan (f q)) h fun i f _ hf => ?_
  show IsNan (if q = index i then _ else _)
  split
  · rename_i e; rw [← e]; exact hf.add_l _
  · exact hf

theorem scatterVal_nan {n : Nat} {index : Nat → Nat} {be f : Nat → α} {i : Nat} (hi : i < n)
    (h : IsNan (be i)) : IsNan (scatterVal n index be f (index i)) := by
  unfold scatterVal
  refine accum_at (P := fun f : Nat → α => IsNan (f (index i))) hi (fun f => ?_) (fun i' f _ hf => ?_)
  · show IsNan (if index i = index i then _ else _)
    rw [if_pos rfl]; exact h.add_r _
  · show IsNan (if index i = index i' then _ else _)
    split
    · rename_i e; rw [← e]; exact hf.add_l _
    · exact hf

theorem accum3_at {σ : Type} {P : σ → Prop} {a b d : Nat} {f : Nat → Nat → Nat → σ → σ} {s : σ} {i j k : Nat}
    (hi : i < a) (hj : j < b) (hk : k < d) (h1 : ∀ s, P (f i j k s))
    (h2 : ∀ i j k s, P s → P (f i j k s)) : P (accum3 a b d f s) :=
  accum_at hi (fun _ => accum_at hj (fun _ => accum_at hk (fun _ => h1 _) fun k s _ => h2 _ _ k s)
    fun j s _ hs => accum_keep hs fun k s _ => h2 _ _ k s)
    fun i s _ hs => accum_keep hs fun j s _ hs => accum_keep hs fun k s _ => h2 _ _ k s

theorem accum2_at {σ : Type} {P : σ → Prop} {a b : Nat} {f : Nat → Nat → σ → σ} {s : σ} {i j : Nat}
    (hi : i < a) (hj : j < b) (h1 : ∀ s, P (f i j s))
    (h2 : ∀ i j s, P s → P (f i j s)) : P (accum2 a b f s) :=
  accum_at hi (fun _ => accum_at hj (fun _ => h1 _) fun j s _ => h2 _ j s)
    fun i s _ hs => accum_keep hs fun j s _ => h2 _ j s

theorem accum3_keep {σ : Type} {P : σ → Prop} {a b d : Nat} {f : Nat → Nat → Nat → σ → σ} {s : σ} (h0 : P s)
    (h2 : ∀ i j k s, i < a → j < b → k < d → P s → P (f i j k s)) : P (accum3 a b d f s) :=
  accum_keep h0 fun i s hi hs => accum_keep hs fun j s hj hs => accum_keep hs fun k s hk => h2 i j k s hi hj hk

theorem aveSig3_nan (hd : c.dim = 3) {ex ey ez : Nat} (hx : ex < c.nx - 1) (hy : ey < c.ny - 1)
    (hz : ez < c.nz - 1) (h : c.HitElem u ex ey ez) (v : Nat) : IsNan (aveSig3 c u vo v) := by
  unfold aveSig3
  refine accum3_at (P := fun a : Nat → α => IsNan (a v)) hx hy hz (fun a => ?_) (fun i j k a ha => ha.add_l _)
  refine IsNan.add_r _ ?_
  exact accum_at (P := fun b : Nat → α => IsNan (b v)) (k := 0) (by omega)
    (fun b => ((gpSig_nan hd h 0 v).mul_l _).add_r _) (fun gp b _ hb => hb.add_l _)

theorem aveSig2_nan (hd : c.dim = 2) {ex ey : Nat} (hx : ex < c.nx - 1) (hy : ey < c.ny - 1)
    (h : c.HitElem u ex ey 0) (v : Nat) : IsNan (aveSig2 c u v) := by
  unfold Cfg.HitElem at h
  rw [if_pos hd] at h
  obtain ⟨i', hi, h⟩ := h
  unfold aveSig2
  refine accum2_at (P := fun a : Nat → α => IsNan (a v)) hx hy (fun a => ?_) (fun i j a ha => ha.add_l _)
  refine IsNan.add_r _ ?_
  exact accum_at (P := fun b : Nat → α => IsNan (b v)) (k := 0) (by omega)
    (fun b => ((sig2_nan (fun v => strain2_nan hi h 0 v) v).mul_l _).add_r _) (fun gp b _ hb => hb.add_l _)

/-- The element lies in the grid. -/
def Cfg.InGrid (c : Cfg α) (ex ey ez : Nat) : Prop :=
  ex < c.nx - 1 ∧ ey < c.ny - 1 ∧ (c.dim = 2 → ez = 0) ∧ (c.dim = 3 → ez < c.nz - 1)

theorem aveV_nan (hc : c.Ok) {ex ey ez : Nat} (he : c.InGrid ex ey ez) (h : c.HitElem u ex ey ez) (v : Nat) :
    IsNan (c.aveV u vo v) := by
  unfold Cfg.aveV
  obtain ⟨hx, hy, h2, h3⟩ := he
  rcases hc.dim with hd | hd
  · rw [if_pos hd]
    exact (aveSig2_nan hd hx hy (h2 hd ▸ h) v).div_l _
  · rw [if_neg (by omega)]
    exact (aveSig3_nan hd hx hy (h3 hd) h v).div_l _

/-- Dof `i` of an element. -/
def Cfg.edof (c : Cfg α) (ex ey ez i : Nat) : Nat :=
  if c.dim = 2 then edof2 c.nx ex ey i else edof3 c.nx c.ny ex ey ez i

theorem residV_nan (hc : c.Ok) {f : Nat → α} {ex ey ez i : Nat} (he : c.InGrid ex ey ez)
    (h : c.HitElem u ex ey ez) (hi : i < c.npe * c.dim) (hb : ¬ c.OnBdry (c.edof ex ey ez i)) :
    IsNan (c.residV u vo f (c.edof ex ey ez i)) := by
  unfold Cfg.residV
  obtain ⟨hx, hy, h2, h3⟩ := he
  unfold Cfg.OnBdry at hb
  unfold Cfg.edof at hb ⊢
  unfold Cfg.npe at hi
  rcases hc.dim with hd | hd
  · rw [if_pos hd, hd] at hi
    rw [if_pos hd, if_pos hd] at hb
    rw [if_pos hd, if_pos hd]
    unfold resid2
    have key : ∀ f0, IsNan (fint2 c u f0 (edof2 c.nx ex ey i)) := fun f0 => by
      unfold fint2
      exact accum2_at (P := fun a : Nat → α => IsNan (a (edof2 c.nx ex ey i))) hx hy
        (fun a => scatterVal_nan hi (elemRhs2_nan hd (h2 hd ▸ h) i)) (fun i j a ha => scatterVal_keep ha)
    simp only
    split
    · first
      | exact (key _).neg
      | (rw [if_neg hb]; exact (key _).neg)
    · exact key _
  · rw [if_neg (by omega), hd] at hi
    rw [if_neg (by omega), if_neg (by omega)] at hb
    rw [if_neg (by omega), if_neg (by omega)]
    unfold resid3
    have key : ∀ f0, IsNan (fint3 c u vo f0 (edof3 c.nx c.ny ex ey ez i)) := fun f0 => by
      unfold fint3
      exact accum3_at (P := fun a : Nat → α => IsNan (a (edof3 c.nx c.ny ex ey ez i))) hx hy (h3 hd)
        (fun a => scatterVal_nan hi (elemRhs3_nan hd h i)) (fun i j k a ha => scatterVal_keep ha)
    simp only
    split
    · first
      | exact (key _).neg
      | (rw [if_neg hb]; exact (key _).neg)
    · exact key _

end Verif
