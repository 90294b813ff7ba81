import Verif.Lemmas.FpFe
import Verif.Lemmas.FeMat

/-!
# The assembled matrix in rounded arithmetic

`assembly_mat` on linear cells: the rounded matrices have the columns of the exact one and values near
its values.
-/

namespace Verif.Spec
open Verif

variable {ι : Type} {S : Fam ι}

/-- Loops of equal length in a family and in one more computation. -/
theorem loop_fam {σ : ι → Type} {τ : Type} {R : ((i : ι) → σ i) → τ → Prop} {N : Nat}
    {n : ι → Nat} (hn : ∀ i, n i = N) {f : (i : ι) → Nat → σ i → M (σ i)} {g : Nat → τ → M τ}
    {s : (i : ι) → σ i} {t : τ} (h0 : R s t)
    (h : ∀ j s t, j < N → R s t → ∃ s' t', (∀ i, f i j (s i) = .ok (s' i)) ∧ g j t = .ok t' ∧ R s' t') :
    ∃ s' t', (∀ i, loop (n i) (f i) (s i) = .ok (s' i)) ∧ loop N g t = .ok t' ∧ R s' t' := by
  suffices H : ∀ k, k ≤ N → ∃ s' t', (∀ i, loop k (f i) (s i) = .ok (s' i)) ∧ loop k g t = .ok t' ∧
      R s' t' by
    obtain ⟨s', t', h1, h2, h3⟩ := H N le_rfl
    exact ⟨s', t', fun i => by rw [hn]; exact h1 i, h2, h3⟩
  intro k
  induction k with
  | zero => intro _; exact ⟨s, t, fun _ => rfl, rfl, h0⟩
  | succ k ih =>
    intro hk
    obtain ⟨s1, t1, h1, h2, h3⟩ := ih (by omega)
    obtain ⟨s2, t2, h4, h5, h6⟩ := h k s1 t1 (by omega) h3
    exact ⟨s2, t2, fun i => by rw [loop_succ, h1, M_bind_ok]; exact h4 i,
      by rw [loop_succ, h2, M_bind_ok]; exact h5, h6⟩

/-- Buffers of `N` entries near each other. -/
structure NearB (S : Fam ι) (N : Nat) (v : (i : ι) → Buf (Fl (S.fp i))) (x : Buf ℝ) : Prop where
  size : ∀ i, (v i).size = N
  size' : x.size = N
  near : ∀ q, q < N → NearF S 0 (fun i => (v i).val q) (fun _ => x.val q)

/-- Blocks that return on near buffers and leave near ones. -/
def NearOp (S : Fam ι) (N : Nat) (f : (i : ι) → Buf (Fl (S.fp i)) → M (Buf (Fl (S.fp i))))
    (g : Buf ℝ → M (Buf ℝ)) : Prop :=
  ∀ v x, NearB S N v x → ∃ v' x', (∀ i, f i (v i) = .ok (v' i)) ∧ g x = .ok x' ∧ NearB S N v' x'

theorem NearOp.loop {N n : Nat} {f : (i : ι) → Nat → Buf (Fl (S.fp i)) → M (Buf (Fl (S.fp i)))}
    {g : Nat → Buf ℝ → M (Buf ℝ)} (h : ∀ j, j < n → NearOp S N (fun i => f i j) (g j)) :
    NearOp S N (fun i => Verif.loop n (f i)) (Verif.loop n g) := fun v x hv =>
  loop_fam (R := NearB S N) (fun _ => rfl) hv fun j s t hj hst => h j hj s t hst

theorem NearOp.rmw {N q : Nat} {g : (i : ι) → M (Fl (S.fp i))} {g' : M ℝ}
    {e : (i : ι) → Fl (S.fp i)} {e' : ℝ} (hq : q < N) (hg : ∀ i, g i = .ok (e i)) (hg' : g' = .ok e')
    (he : NearF S 0 e fun _ => e') :
    NearOp S N (fun i v => do let a ← v.read q; let e ← g i; v.write q (a + e))
      (fun v => do let a ← v.read q; let e ← g'; v.write q (a + e)) := by
  intro v x hv
  refine ⟨fun i => ⟨N, fun r => if r = q then (v i).val q + e i else (v i).val r⟩,
    ⟨N, fun r => if r = q then x.val q + e' else x.val r⟩, fun i => ?_, ?_, ?_⟩
  · simp only []
    rw [Buf.read_ok (by rw [hv.size]; exact hq), M_bind_ok', hg, M_bind_ok',
      Buf.write_ok _ (by rw [hv.size]; exact hq), hv.size]
  · simp only []
    rw [Buf.read_ok (by rw [hv.size']; exact hq), M_bind_ok', hg', M_bind_ok',
      Buf.write_ok _ (by rw [hv.size']; exact hq), hv.size']
  · refine ⟨fun _ => rfl, rfl, fun r hr => ?_⟩
    simp only []
    by_cases h : r = q
    · simp only [h, if_true]
      exact (hv.near q hq).add he
    · simp only [h, if_false]
      exact hv.near r hr

section
variable {α : Type} [Scalar α]

/-- The loops of `ell_add_struct2D` and `ell_add_struct3D`. -/
def addLoops (nF W npe : Nat) (sn : Nat → Nat) (cr : Nat → Nat → Nat) (Ae : Buf α) :
    Buf α → M (Buf α) :=
  Verif.loop nF (fun i v => Verif.loop npe (fun n v => Verif.loop npe (fun k v =>
    Verif.loop nF (fun j v => do
      let a ← v.read (sn k * (nF * (W * nF)) + i * (W * nF) + cr k n * nF + j)
      let e ← Ae.read (k * (npe * nF * nF) + i * (npe * nF) + n * nF + j)
      v.write (sn k * (nF * (W * nF)) + i * (W * nF) + cr k n * nF + j) (a + e)) v) v) v)

theorem ellAddStruct3D_loops {m : Ell α} {nF nx ny nz ex ey ez : Nat} {Ae : Buf α}
    (hnnz : m.nnz = 27 * nF) {v : Buf α}
    (h : addLoops nF 27 8 (sn3D nx ny ex ey ez) colsRow3D Ae m.vals = .ok v) :
    ellAddStruct3D m ex ey ez Ae nF nx ny nz = .ok { m with vals := v } := by
  obtain ⟨nrow, ncol, nnz, cols, vals⟩ := m
  simp only at hnnz h
  subst hnnz
  unfold ellAddStruct3D
  unfold addLoops at h
  simp only []
  rw [h]; rfl

theorem ellAddStruct2D_loops {m : Ell α} {nF nx ny ex ey : Nat} {Ae : Buf α}
    (hnnz : m.nnz = 9 * nF) {v : Buf α}
    (h : addLoops nF 9 4 (sn2D nx ex ey) colsRow2D Ae m.vals = .ok v) :
    ellAddStruct2D m ex ey Ae nF nx ny = .ok { m with vals := v } := by
  obtain ⟨nrow, ncol, nnz, cols, vals⟩ := m
  simp only at hnnz h
  subst hnnz
  unfold ellAddStruct2D
  unfold addLoops at h
  simp only []
  rw [h]; rfl

end

theorem near_addLoops {nF W npe nn : Nat} {sn : Nat → Nat} {cr : Nat → Nat → Nat}
    {Ae : (i : ι) → Buf (Fl (S.fp i))} {Ax : Buf ℝ} (hAe : NearB S (npe * nF * (npe * nF)) Ae Ax)
    (hsn : ∀ k, k < npe → sn k < nn) (hcr : ∀ k n, k < npe → n < npe → cr k n < W) :
    NearOp S (W * nF * (nn * nF)) (fun i => addLoops nF W npe sn cr (Ae i))
      (addLoops nF W npe sn cr Ax) := by
  unfold addLoops
  refine NearOp.loop fun a ha => NearOp.loop fun n hn => NearOp.loop fun k hk =>
    NearOp.loop fun j hj => ?_
  have e1 : sn k * (nF * (W * nF)) + a * (W * nF) + cr k n * nF + j
      = slotIx nF W (sn k) a (cr k n) j := ix_form_add
  have e2 : k * (npe * nF * nF) + a * (npe * nF) + n * nF + j
      = (k * nF + a) * (npe * nF) + (n * nF + j) := by ring
  have hlt : (k * nF + a) * (npe * nF) + (n * nF + j) < npe * nF * (npe * nF) :=
    mul_add_lt (mul_add_lt hk ha) (mul_add_lt hn hj)
  rw [e1, e2]
  exact NearOp.rmw (slotIx_lt (hsn k hk) ha (hcr k n hk hn) hj)
    (fun i => Buf.read_ok (by rw [hAe.size]; exact hlt)) (Buf.read_ok (by rw [hAe.size']; exact hlt))
    (hAe.near _ hlt)

/-! ## Element matrices -/

section
variable {c : (i : ι) → Cfg (Fl (S.fp i))} {C : Cfg ℝ}

theorem near_ctan3D (h : NearCfg S c C) {k : Nat} (hk : k < 2) (a b : Nat) :
    NearF S 0 (fun i => ctan3D ((c i).mats k) a b) (fun _ => ctan3D (C.mats k) a b) := by
  have hl := h.lambda k hk
  have hm := h.mu k hk
  unfold ctan3D
  dsimp only
  have h1 : NearF S 0 (fun i => if a < 3 ∧ b < 3 then 0 + ((c i).mats k).lambda else 0)
      (fun _ => if a < 3 ∧ b < 3 then 0 + (C.mats k).lambda else 0) := by
    split
    · exact (NearF.zero 0).add hl
    · exact NearF.zero 0
  have h2 : NearF S 0 (fun i => if a < 3 ∧ a = b then
        (if a < 3 ∧ b < 3 then 0 + ((c i).mats k).lambda else 0) + ((2 : Nat) : Fl _) * ((c i).mats k).mu
        else if a < 3 ∧ b < 3 then 0 + ((c i).mats k).lambda else 0)
      (fun _ => if a < 3 ∧ a = b then
        (if a < 3 ∧ b < 3 then 0 + (C.mats k).lambda else 0) + ((2 : Nat) : ℝ) * (C.mats k).mu
        else if a < 3 ∧ b < 3 then 0 + (C.mats k).lambda else 0) := by
    by_cases hab : a < 3 ∧ a = b
    · rw [if_pos hab]
      exact NearF.congr (h1.add ((NearF.nat 2).mul0 hm)) (fun i => by rw [if_pos hab]) fun _ => rfl
    · rw [if_neg hab]
      exact NearF.congr h1 (fun i => by rw [if_neg hab]) fun _ => rfl
  by_cases hab : ¬ a < 3 ∧ a = b
  · rw [if_pos hab]
    refine NearF.congr (h2.add hm) (fun i => ?_) fun _ => rfl
    rw [if_pos hab]
  · rw [if_neg hab]
    refine NearF.congr h2 (fun i => ?_) fun _ => rfl
    rw [if_neg hab]

theorem near_elemMat3 (h : NearCfg S c C) (hd : C.dim = 3) {ex ey ez : Nat} (hx : ex < C.nx - 1)
    (hy : ey < C.ny - 1) (hz : ez < C.nz - 1) (u : (i : ι) → Nat → Fl (S.fp i)) (x : Nat → ℝ)
    (vo : (i : ι) → Buf (Fl (S.fp i))) (vx : Buf ℝ) (q : Nat) :
    NearF S 0 (fun i => elemMat3 (c i) (u i) (vo i) ex ey ez q)
      (fun _ => elemMat3 C x vx ex ey ez q) := by
  unfold elemMat3 gpCtan
  simp only [Cfg.el, h.nx, h.ny]
  obtain ⟨k, hk, h1, h2⟩ := h.mat hx hy (Or.inr hz)
  simp only [h1, h2, h.plast hd _ k hk, h.plast' hd k hk, Bool.false_eq_true, if_false]
  have hb := near_bmat3D h.dx h.dy (h.dz hd) h.dx0 h.dy0 (h.dz0 hd)
  refine accum_fam (N := 8) (τ := fun _ => Nat → ℝ)
    (R := fun (s : (i : ι) → Nat → Fl (S.fp i)) (t : ι → Nat → ℝ) =>
      ∀ q, NearF S 0 (fun i => s i q) (fun i => t i q))
    (fun _ => rfl) (fun _ => rfl) (fun q => NearF.zero 0) ?_ q
  intro gp s t _ hst q
  refine NearF.sum (a := fun j i => bmat3D (c i).dx (c i).dy (c i).dz gp j (q / 24)
      * accum 6 (fun l y => y + ctan3D ((c i).mats k) j l
        * bmat3D (c i).dx (c i).dy (c i).dz gp l (q % 24)) 0 * wg3D (c i)) (hst q) fun j _ => ?_
  refine ((hb gp j (q / 24)).mul0 ?_).mul0 (near_wg3D h.toNearGrid hd)
  exact NearF.sum (a := fun l i => ctan3D ((c i).mats k) j l
    * bmat3D (c i).dx (c i).dy (c i).dz gp l (q % 24)) (NearF.zero 0) fun l _ =>
      (near_ctan3D h hk j l).mul0 (hb gp l (q % 24))

theorem near_elemMat2 (h : NearCfg S c C) {ex ey : Nat} (hx : ex < C.nx - 1) (hy : ey < C.ny - 1)
    (q : Nat) : NearF S 0 (fun i => elemMat2 (c i) ex ey q) (fun _ => elemMat2 C ex ey q) := by
  unfold elemMat2
  simp only [Cfg.el, h.nx, h.ny]
  obtain ⟨k, hk, h1, h2⟩ := h.mat hx hy (Or.inl rfl)
  simp only [h1, h2]
  have hb := near_bmat2D h.dx h.dy h.dx0 h.dy0
  refine accum_fam (N := 4) (τ := fun _ => Nat → ℝ)
    (R := fun (s : (i : ι) → Nat → Fl (S.fp i)) (t : ι → Nat → ℝ) =>
      ∀ q, NearF S 0 (fun i => s i q) (fun i => t i q))
    (fun _ => rfl) (fun _ => rfl) (fun q => NearF.zero 0) ?_ q
  intro gp s t _ hst q
  refine NearF.sum (a := fun j i => bmat2D (c i).dx (c i).dy gp j (q / 8)
      * accum 3 (fun l y => y + ctan2D ((c i).mats k) j l
        * bmat2D (c i).dx (c i).dy gp l (q % 8)) 0 * wg2D (c i)) (hst q) fun j _ => ?_
  refine ((hb gp j (q / 8)).mul0 ?_).mul0 (near_wg2D h)
  exact NearF.sum (a := fun l i => ctan2D ((c i).mats k) j l
    * bmat2D (c i).dx (c i).dy gp l (q % 8)) (NearF.zero 0) fun l _ =>
      (near_ctan2D h hk j l).mul0 (hb gp l (q % 8))

/-! ## Matrices -/

/-- Rounded matrices near an exact one. -/
structure NearM (S : Fam ι) (A : (i : ι) → Ell (Fl (S.fp i))) (B : Ell ℝ) : Prop where
  nrow : ∀ i, (A i).nrow = B.nrow
  nnz : ∀ i, (A i).nnz = B.nnz
  cols : ∀ i q, q < B.nnz * B.nrow → (A i).cols.val q = B.cols.val q
  vals : NearB S (B.nnz * B.nrow) (fun i => (A i).vals) B.vals

theorem near_zero {A : (i : ι) → Ell (Fl (S.fp i))} {B : Ell ℝ} {W R : Nat}
    (h : ∀ i, (A i).nnz = W ∧ (A i).nrow = R ∧ (A i).vals.size = W * R)
    (h' : B.nnz = W ∧ B.nrow = R ∧ B.vals.size = W * R) :
    ∃ v x, (∀ i, ellSetZeroMat (A i) = .ok { A i with vals := v i }) ∧
      ellSetZeroMat B = .ok { B with vals := x } ∧ NearB S (W * R) v x := by
  have h1 : ∀ i, ∃ v : Buf (Fl (S.fp i)), ellSetZeroMat (A i) = .ok { A i with vals := v } ∧
      v.size = W * R ∧ ∀ q, q < W * R → v.val q = 0 := fun i => by
    obtain ⟨e1, e2, e3⟩ := h i
    obtain ⟨v, h1, h2, h3⟩ := ellSetZeroMat_eq (m := A i) (by rw [e1, e2, e3])
    rw [e1, e2] at h2 h3
    exact ⟨v, h1, h2, h3⟩
  choose v h2 h3 h4 using h1
  obtain ⟨e1, e2, e3⟩ := h'
  obtain ⟨x, h5, h6, h7⟩ := ellSetZeroMat_eq (m := B) (by rw [e1, e2, e3])
  rw [e1, e2] at h6 h7
  refine ⟨v, x, h2, h5, h3, h6, fun q hq => ?_⟩
  simp only [h4 _ q hq, h7 q hq]
  exact NearF.zero 0

/-- Values of matrices of one pattern. -/
structure Fam3 (S : Fam ι) (nx ny nz : Nat) (A : (i : ι) → Ell (Fl (S.fp i))) (B : Ell ℝ) : Prop where
  pat : ∀ i, Pattern3 (A i) 3 nx ny nz
  pat' : Pattern3 B 3 nx ny nz
  vals : NearB S (27 * 3 * (nx * ny * nz * 3)) (fun i => (A i).vals) B.vals

structure Fam2 (S : Fam ι) (nx ny : Nat) (A : (i : ι) → Ell (Fl (S.fp i))) (B : Ell ℝ) : Prop where
  pat : ∀ i, Pattern2Weak (A i) 2 nx ny
  pat' : Pattern2Weak B 2 nx ny
  vals : NearB S (9 * 2 * (nx * ny * 2)) (fun i => (A i).vals) B.vals

theorem Fam3.nearM {nx ny nz : Nat} {A : (i : ι) → Ell (Fl (S.fp i))} {B : Ell ℝ}
    (h : Fam3 S nx ny nz A B) : NearM S A B := by
  have e : B.nnz * B.nrow = 27 * 3 * (nx * ny * nz * 3) := by rw [h.pat'.nnz, h.pat'.nrow]
  refine ⟨fun i => by rw [(h.pat i).nrow, h.pat'.nrow], fun i => by rw [(h.pat i).nnz, h.pat'.nnz],
    fun i q hq => ?_, by rw [e]; exact h.vals⟩
  rw [e] at hq
  obtain ⟨hn, hd, hs, h2, e⟩ := slotIx_surj hq
  obtain ⟨i', j, k, hi, hj, hk, en⟩ := node3_surj hn
  rw [← e, en, (h.pat i).col hi hj hk hd hs h2, h.pat'.col hi hj hk hd hs h2]

theorem Fam2.nearM {nx ny : Nat} {A : (i : ι) → Ell (Fl (S.fp i))} {B : Ell ℝ}
    (h : Fam2 S nx ny A B) : NearM S A B := by
  have e : B.nnz * B.nrow = 9 * 2 * (nx * ny * 2) := by rw [h.pat'.nnz, h.pat'.nrow]
  refine ⟨fun i => by rw [(h.pat i).nrow, h.pat'.nrow], fun i => by rw [(h.pat i).nnz, h.pat'.nnz],
    fun i q hq => ?_, by rw [e]; exact h.vals⟩
  rw [e] at hq
  obtain ⟨hn, hd, hs, h2, e⟩ := slotIx_surj hq
  obtain ⟨i', j, hi, hj, en⟩ := node2_surj hn
  by_cases hb : i' + 1 = nx ∧ 0 < j ∧ j + 1 < ny ∧ ixS 2 9 q = 7
  · obtain ⟨b1, b2, b3, b4⟩ := hb
    have hi' : i' = nx - 1 := by omega
    have t1 := (h.pat i).cols_right j _ _ b2 b3 hd h2
    have t2 := h.pat'.cols_right j _ _ b2 b3 hd h2
    rw [(h.pat i).nnz, slotIx_eq_row] at t1
    rw [h.pat'.nnz, slotIx_eq_row] at t2
    rw [← e, en, b4, hi', t1, t2]
  · rw [← e, en, (h.pat i).col hi hj hd hs h2 hb, h.pat'.col hi hj hd hs h2 hb]

theorem Fam3.bc {nx ny nz : Nat} (hx : 2 ≤ nx) (hy : 2 ≤ ny) (hz : 2 ≤ nz)
    {A : (i : ι) → Ell (Fl (S.fp i))} {B : Ell ℝ} (h : Fam3 S nx ny nz A B) :
    ∃ A' B', (∀ i, ellSetBc3D (A i) 3 nx ny nz = .ok (A' i)) ∧ ellSetBc3D B 3 nx ny nz = .ok B' ∧
      Fam3 S nx ny nz A' B' := by
  have h1 := fun i => ellSetBc3D_eq hx hy hz (h.pat i).nnz (h.vals.size i)
  choose v h2 h3 h4 using h1
  obtain ⟨x, h5, h6, h7⟩ := ellSetBc3D_eq hx hy hz h.pat'.nnz h.vals.size'
  refine ⟨_, _, h2, h5, fun i => Pattern3.withVals (h.pat i) (h3 i), Pattern3.withVals h.pat' h6, h3, h6,
    fun q hq => ?_⟩
  obtain ⟨hn, hd, hs, h2', e⟩ := slotIx_surj hq
  obtain ⟨i', j, k, hi, hj, hk, en⟩ := node3_surj hn
  rw [← e, en]
  by_cases hb : bc3 nx ny nz i' j k (ixS 3 27 q)
  · simp only [(h4 _ i' j k _ _ _ hi hj hk hd hs h2').1 hb, (h7 i' j k _ _ _ hi hj hk hd hs h2').1 hb]
    split
    · exact NearF.one
    · exact NearF.zero 0
  · simp only [(h4 _ i' j k _ _ _ hi hj hk hd hs h2').2 hb, (h7 i' j k _ _ _ hi hj hk hd hs h2').2 hb]
    exact h.vals.near _ (slotIx_lt (node3_lt hi hj hk) hd hs h2')

theorem Fam2.bc {nx ny : Nat} (hx : 2 ≤ nx) (hy : 2 ≤ ny)
    {A : (i : ι) → Ell (Fl (S.fp i))} {B : Ell ℝ} (h : Fam2 S nx ny A B) :
    ∃ A' B', (∀ i, ellSetBc2D (A i) 2 nx ny = .ok (A' i)) ∧ ellSetBc2D B 2 nx ny = .ok B' ∧
      Fam2 S nx ny A' B' := by
  have h1 := fun i => ellSetBc2D_eq hx hy (h.pat i).nnz (h.vals.size i)
  choose v h2 h3 h4 using h1
  obtain ⟨x, h5, h6, h7⟩ := ellSetBc2D_eq hx hy h.pat'.nnz h.vals.size'
  refine ⟨_, _, h2, h5, fun i => Pattern2Weak.withVals (h.pat i) (h3 i),
    Pattern2Weak.withVals h.pat' h6, h3, h6, fun q hq => ?_⟩
  obtain ⟨hn, hd, hs, h2', e⟩ := slotIx_surj hq
  obtain ⟨i', j, hi, hj, en⟩ := node2_surj hn
  rw [← e, en]
  by_cases hb : bc2 nx ny i' j (ixS 2 9 q)
  · simp only [(h4 _ i' j _ _ _ hi hj hd hs h2').1 hb, (h7 i' j _ _ _ hi hj hd hs h2').1 hb]
    split
    · exact NearF.one
    · exact NearF.zero 0
  · simp only [(h4 _ i' j _ _ _ hi hj hd hs h2').2 hb, (h7 i' j _ _ _ hi hj hd hs h2').2 hb]
    exact h.vals.near _ (slotIx_lt (node2_lt hi hj) hd hs h2')

theorem Fam3.add {nx ny nz ex ey ez : Nat} (hx : ex + 1 < nx) (hy : ey + 1 < ny) (hz : ez + 1 < nz)
    {A : (i : ι) → Ell (Fl (S.fp i))} {B : Ell ℝ} (h : Fam3 S nx ny nz A B)
    {Ae : (i : ι) → Nat → Fl (S.fp i)} {Ax : Nat → ℝ}
    (he : ∀ q, NearF S 0 (fun i => Ae i q) (fun _ => Ax q)) :
    ∃ A' B', (∀ i, ellAddStruct3D (A i) ex ey ez ⟨576, Ae i⟩ 3 nx ny nz = .ok (A' i)) ∧
      ellAddStruct3D B ex ey ez ⟨576, Ax⟩ 3 nx ny nz = .ok B' ∧ Fam3 S nx ny nz A' B' := by
  obtain ⟨v, x, h1, h2, h3⟩ := near_addLoops (S := S) (nF := 3) (W := 27) (npe := 8)
    (nn := nx * ny * nz) (sn := sn3D nx ny ex ey ez) (cr := colsRow3D)
    (Ae := fun i => ⟨576, Ae i⟩) (Ax := ⟨576, Ax⟩) ⟨fun _ => rfl, rfl, fun q _ => he q⟩
    (fun k hk => by rw [sn3D_eq hk]; exact enode3_lt hx hy hz hk)
    (fun k n hk hn => (colsRow3D_spec k hk n hn).1) _ _ h.vals
  exact ⟨_, _, fun i => ellAddStruct3D_loops (h.pat i).nnz (h1 i), ellAddStruct3D_loops h.pat'.nnz h2,
    fun i => Pattern3.withVals (h.pat i) (h3.size i), Pattern3.withVals h.pat' h3.size', h3⟩

theorem Fam2.add {nx ny ex ey : Nat} (hx : ex + 1 < nx) (hy : ey + 1 < ny)
    {A : (i : ι) → Ell (Fl (S.fp i))} {B : Ell ℝ} (h : Fam2 S nx ny A B)
    {Ae : (i : ι) → Nat → Fl (S.fp i)} {Ax : Nat → ℝ}
    (he : ∀ q, NearF S 0 (fun i => Ae i q) (fun _ => Ax q)) :
    ∃ A' B', (∀ i, ellAddStruct2D (A i) ex ey ⟨64, Ae i⟩ 2 nx ny = .ok (A' i)) ∧
      ellAddStruct2D B ex ey ⟨64, Ax⟩ 2 nx ny = .ok B' ∧ Fam2 S nx ny A' B' := by
  obtain ⟨v, x, h1, h2, h3⟩ := near_addLoops (S := S) (nF := 2) (W := 9) (npe := 4)
    (nn := nx * ny) (sn := sn2D nx ex ey) (cr := colsRow2D)
    (Ae := fun i => ⟨64, Ae i⟩) (Ax := ⟨64, Ax⟩) ⟨fun _ => rfl, rfl, fun q _ => he q⟩
    (fun k hk => by rw [sn2D_eq hk]; exact enode2_lt hx hy)
    (fun k n hk hn => (colsRow2D_spec k hk n hn).1) _ _ h.vals
  exact ⟨_, _, fun i => ellAddStruct2D_loops (h.pat i).nnz (h1 i), ellAddStruct2D_loops h.pat'.nnz h2,
    fun i => Pattern2Weak.withVals (h.pat i) (h3.size i), Pattern2Weak.withVals h.pat' h3.size', h3⟩

/-- `assembly_mat` in rounded and in exact arithmetic. -/
theorem near_assemblyMat (h : NearCfg S c C) (hc : ∀ i, (c i).Ok) (hC : C.Ok)
    {w : (i : ι) → Work (Fl (S.fp i))} (hw : ∀ i, (w i).Ok (c i)) {W : Work ℝ} (hW : W.Ok C) :
    ∃ (A : (i : ι) → Ell (Fl (S.fp i))) (vn : (i : ι) → Buf (Fl (S.fp i))) (B : Ell ℝ) (vx : Buf ℝ),
      (∀ i, assemblyMat (c i) (w i) = .ok { w i with A := A i, varsNew := vn i }) ∧
      assemblyMat C W = .ok { W with A := B, varsNew := vx } ∧ NearM S A B := by
  unfold assemblyMat
  rcases hC.dim with hd | hd
  · have hdi : ∀ i, (c i).dim = 2 := fun i => by rw [h.dim]; exact hd
    have p : ∀ i, Pattern2Weak (w i).A 2 C.nx C.ny := fun i => by
      have := (hw i).A2 (hdi i); rwa [h.nx, h.ny] at this
    have P := hW.A2 hd
    obtain ⟨v, x, h1, h2, h3⟩ := near_zero (S := S) (A := fun i => (w i).A) (B := W.A)
      (W := 9 * 2) (R := C.nx * C.ny * 2)
      (fun i => ⟨(p i).nnz, (p i).nrow, by rw [(p i).vals_size, (p i).nnz, (p i).nrow]⟩)
      ⟨P.nnz, P.nrow, by rw [P.vals_size, P.nnz, P.nrow]⟩
    have h0 : Fam2 S C.nx C.ny (fun i => { (w i).A with vals := v i }) { W.A with vals := x } :=
      ⟨fun i => Pattern2Weak.withVals (p i) (h3.size i), Pattern2Weak.withVals P h3.size', h3⟩
    obtain ⟨A1, B1, k1, k2, k3⟩ := loop_fam (N := C.nx - 1) (n := fun i => (c i).nx - 1)
      (σ := fun i => Ell (Fl (S.fp i))) (τ := Ell ℝ) (R := Fam2 S C.nx C.ny)
      (fun i => by rw [h.nx])
      (f := fun i ex A => loop ((c i).ny - 1) (fun ey A => do
        let Ae ← getElemMat2D (c i) ex ey
        ellAddStruct2D A ex ey Ae (c i).dim (c i).nx (c i).ny) A)
      (g := fun ex A => loop (C.ny - 1) (fun ey A => do
        let Ae ← getElemMat2D C ex ey
        ellAddStruct2D A ex ey Ae C.dim C.nx C.ny) A) h0
      (by
        intro ex A B hx hAB
        refine loop_fam (N := C.ny - 1) (R := Fam2 S C.nx C.ny) (fun i => by rw [h.ny]) hAB ?_
        intro ey A B hy hAB
        obtain ⟨A', B', q1, q2, q3⟩ := hAB.add (ex := ex) (ey := ey) (by omega) (by omega)
          (near_elemMat2 h hx hy)
        refine ⟨A', B', fun i => ?_, ?_, q3⟩
        · rw [getElemMat2D_eq (hc i) (hdi i) (by rw [h.nx]; exact hx) (by rw [h.ny]; exact hy),
            M_bind_ok', h.nx, h.ny, hdi]
          exact q1 i
        · rw [getElemMat2D_eq hC hd hx hy, M_bind_ok', hd]
          exact q2)
    obtain ⟨A2, B2, l1, l2, l3⟩ := k3.bc hC.nx hC.ny
    refine ⟨A2, fun i => (w i).varsNew, B2, W.varsNew, fun i => ?_, ?_, l3.nearM⟩
    · rw [h1 i, M_bind_ok', if_pos (hdi i), k1 i, M_bind_ok', hdi, h.nx, h.ny, l1 i]
      rfl
    · rw [h2, M_bind_ok', if_pos hd, k2, M_bind_ok', hd, l2]
      rfl
  · have hdi : ∀ i, (c i).dim = 3 := fun i => by rw [h.dim]; exact hd
    have p : ∀ i, Pattern3 (w i).A 3 C.nx C.ny C.nz := fun i => by
      have := (hw i).A3 (hdi i); rwa [h.nx, h.ny, h.nz] at this
    have P := hW.A3 hd
    obtain ⟨v, x, h1, h2, h3⟩ := near_zero (S := S) (A := fun i => (w i).A) (B := W.A)
      (W := 27 * 3) (R := C.nx * C.ny * C.nz * 3)
      (fun i => ⟨(p i).nnz, (p i).nrow, by rw [(p i).vals_size, (p i).nnz, (p i).nrow]⟩)
      ⟨P.nnz, P.nrow, by rw [P.vals_size, P.nnz, P.nrow]⟩
    have h0 : Fam3 S C.nx C.ny C.nz (fun i => { (w i).A with vals := v i }) { W.A with vals := x } :=
      ⟨fun i => Pattern3.withVals (p i) (h3.size i), Pattern3.withVals P h3.size', h3⟩
    let R : ((i : ι) → MatState (Fl (S.fp i))) → MatState ℝ → Prop := fun s t =>
      Fam3 S C.nx C.ny C.nz (fun i => (s i).A) t.A ∧
        (∀ i, (s i).varsNew.size = (c i).numIntVars) ∧ t.varsNew.size = C.numIntVars
    obtain ⟨A1, B1, k1, k2, k3, -⟩ := loop_fam (N := C.nx - 1) (n := fun i => (c i).nx - 1)
      (σ := fun i => MatState (Fl (S.fp i))) (τ := MatState ℝ) (R := R)
      (fun i => by rw [h.nx])
      (s := fun i => ⟨{ (w i).A with vals := v i }, (w i).varsNew⟩)
      (t := ⟨{ W.A with vals := x }, W.varsNew⟩)
      (f := fun i ex s => loop ((c i).ny - 1) (fun ey s => loop ((c i).nz - 1) (fun ez s => do
        let r ← getElemMat3D (c i) (w i).u (w i).varsOld s.varsNew ex ey ez
        let A ← ellAddStruct3D s.A ex ey ez ⟨576, r.Ae⟩ (c i).dim (c i).nx (c i).ny (c i).nz
        pure { A := A, varsNew := r.varsNew }) s) s)
      (g := fun ex s => loop (C.ny - 1) (fun ey s => loop (C.nz - 1) (fun ez s => do
        let r ← getElemMat3D C W.u W.varsOld s.varsNew ex ey ez
        let A ← ellAddStruct3D s.A ex ey ez ⟨576, r.Ae⟩ C.dim C.nx C.ny C.nz
        pure { A := A, varsNew := r.varsNew }) s) s)
      ⟨h0, fun i => (hw i).varsNew, hW.varsNew⟩
      (by
        intro ex s t hx hst
        refine loop_fam (N := C.ny - 1) (R := R) (fun i => by rw [h.ny]) hst ?_
        intro ey s t hy hst
        refine loop_fam (N := C.nz - 1) (R := R) (fun i => by rw [h.nz]) hst ?_
        intro ez s t hz hst
        obtain ⟨A', B', q1, q2, q3⟩ := hst.1.add (ex := ex) (ey := ey) (ez := ez) (by omega) (by omega)
          (by omega) (near_elemMat3 h hd hx hy hz (fun i => (w i).u.val) W.u.val
            (fun i => (w i).varsOld) W.varsOld)
        refine ⟨fun i => ⟨A' i, elemMatPut (c i) (w i).u.val (w i).varsOld ex ey ez (s i).varsNew⟩,
          ⟨B', elemMatPut C W.u.val W.varsOld ex ey ez t.varsNew⟩, fun i => ?_, ?_, q3,
          fun i => by simpa using hst.2.1 i, by simpa using hst.2.2⟩
        · rw [getElemMat3D_eq (hc i) (hdi i) ((hw i).u3 (hdi i)) (hw i).varsOld (hst.2.1 i)
            (by rw [h.nx]; exact hx) (by rw [h.ny]; exact hy) (by rw [h.nz]; exact hz),
            M_bind_ok', h.nx, h.ny, h.nz, hdi]
          rw [q1 i]; rfl
        · rw [getElemMat3D_eq hC hd (hW.u3 hd) hW.varsOld hst.2.2 hx hy hz, M_bind_ok', hd]
          rw [q2]; rfl)
    obtain ⟨A2, B2, l1, l2, l3⟩ := k3.bc hC.nx hC.ny (hC.nz3 hd)
    refine ⟨A2, fun i => (A1 i).varsNew, B2, B1.varsNew, fun i => ?_, ?_, l3.nearM⟩
    · have hd2 := hdi i
      rw [h1 i, M_bind_ok', if_neg (by omega), if_pos hd2, k1 i, M_bind_ok', hdi, h.nx, h.ny, h.nz, l1 i]
      rfl
    · rw [h2, M_bind_ok', if_neg (by omega), if_pos hd, k2, M_bind_ok', hd, l2]
      rfl

end

end Verif.Spec
