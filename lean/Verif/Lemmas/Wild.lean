import Verif.Lemmas.InfStrain

/-!
# Materials with infinite constants
-/

namespace Verif
open Spec
variable {fp : Range}

/-! ## Infinite or NaN -/

namespace NotFin
variable {a b : Dbl fp}

theorem of_nan (h : IsNan a) : NotFin a := by
  cases a with
  | fin x h1 h2 => cases h
  | inf s => cases h
  | nan => rfl

theorem neg (h : NotFin a) : NotFin (-a) := by
  cases a with
  | fin x h1 h2 => cases h
  | inf s => rfl
  | nan => rfl

theorem sub_l (h : NotFin a) (b : Dbl fp) : NotFin (a - b) := h.add_l _

theorem sub_r (h : NotFin a) (b : Dbl fp) : NotFin (b - a) := h.neg.add_r _

theorem div_l (h : NotFin a) (b : Dbl fp) : NotFin (a / b) := by
  cases a with
  | fin x h1 h2 => cases h
  | inf s => cases b <;> rfl
  | nan => cases b <;> rfl

/-- Division by zero. -/
theorem div_nil (a : Dbl fp) (h : Nil b) : NotFin (a / b) := by
  rcases h with rfl | rfl
  · rw [dbl_zero]
    cases a with
    | fin x h1 h2 =>
      show Dbl.isFin (open Classical in if (0 : ℝ) = 0 then (if x = 0 then Dbl.nan else Dbl.inf _) else _) = false
      rw [if_pos rfl]
      split <;> rfl
    | inf s => rfl
    | nan => rfl
  · cases a <;> rfl

theorem sqrt_lt (h : NotFin a) (b : Dbl fp) : Scalar.lt (Scalar.sqrt a) b = false := by
  cases a with
  | fin x h1 h2 => cases h
  | inf s =>
    cases s
    · show Dbl.less (.inf false) b = false
      cases b <;> rfl
    · rfl
  | nan => rfl

/-- The preconditioner at a node of infinite stiffness: `1 / inf` times infinity. -/
theorem recip_mul (h : NotFin a) (h' : NotFin b) : IsNan (1 / a * b) := by
  cases a with
  | fin x h1 h2 => cases h
  | nan => exact IsNan.mul_l (NanLaws.div_right _ _ rfl) _
  | inf s =>
    have e : (1 : Dbl fp) / .inf s = 0 := round_zero
    rw [e, dbl_zero]
    cases b with
    | fin x h1 h2 => cases h'
    | nan => rfl
    | inf t =>
      show Dbl.isNan (open Classical in if (0 : ℝ) = 0 then Dbl.nan else _) = true
      rw [if_pos rfl]; rfl

theorem norm {n k : Nat} {f : Nat → Dbl fp} (hk : k < n) (h : NotFin (f k)) (b : Dbl fp) :
    Scalar.lt (normOf n f) b = false :=
  sqrt_lt (NotFin.accum (f := fun i => f i * f i) hk (h.mul_l _) 0) b

end NotFin

/-! ## The solver -/

/-- Conjugate gradients from zero with an infinity on the diagonal and on the right-hand side of the same row:
the solution is NaN everywhere. -/
theorem cgSolve_wild {m : Ell (Dbl fp)} (hm : m.WF) {nF W nn slot : Nat} (hnnz : m.nnz = W * nF)
    (hslot : slot < W) (hnn : nn * nF ≤ m.nrow) {b x : Buf (Dbl fp)} (hb : b.size = m.nrow)
    (hx : x.size = m.nrow) (junk : Nat → Nat → Dbl fp)
    (solver : EllSolver (Dbl fp)) {s' : EllSolver (Dbl fp)} {y : Buf (Dbl fp)}
    (h : cgSolve junk solver m nF nn slot b x = .ok (s', y)) {n d : Nat} (hn : n < nn) (hd : d < nF)
    (hA : NotFin (m.vals.val (slotIx nF W n d slot d))) (hbk : NotFin (b.val (n * nF + d)))
    {i : Nat} (hi : i < m.nrow) : IsNan (y.val i) := by
  obtain ⟨kk, s, N, S, sF, h0, -, h1, h2, T, e⟩ :=
    cgSolve_trace hm hnnz hslot hnn hb hx junk solver
  rw [e] at h
  cases h
  have hk : n * nF + d < m.nrow := lt_of_lt_of_le (mul_add_lt hn hd) hnn
  have hr : NotFin ((S 0).r.val (n * nF + d)) := by
    rw [T.start, h2 _ hk]
    exact hbk.sub_r _
  have hN : N ≠ 0 := by
    intro hN
    rcases T.stop with ⟨a, -⟩ | ⟨a, -⟩
    · have : Scalar.lt (errOf m (S N)) solver.minTol = false := by
        rw [hN]
        exact NotFin.norm hk hr _
      rw [this] at a; cases a
    · omega
  have h1' : IsNan (S 1).rho0 := by
    rw [(T.step 0 (by omega)).rho]
    refine accum_nan (f := fun i => (S 0).r.val i * (S 1).z.val i) hk (IsNan.mul_r _ ?_)
    rw [(T.step 0 (by omega)).z _ hk, h0 n d hn hd]
    exact NotFin.recip_mul hA hr
  have hfin : ∀ j, j < N → IsNan ((S (j + 1)).x.val i) := by
    intro j
    induction j with
    | zero =>
      intro hj
      rw [(T.step 0 hj).x i hi]
      exact ((h1'.div_l _).mul_l _).sub_r _
    | succ j ih =>
      intro hj
      rw [(T.step (j + 1) hj).x i hi]
      exact (ih (by omega)).sub_l _
  obtain ⟨n', rfl⟩ := Nat.exists_eq_succ_of_ne_zero hN
  exact hfin n' (by omega)

/-! ## Elements -/

variable {c : Cfg (Dbl fp)} {u : Nat → Dbl fp} {vo : Buf (Dbl fp)}

/-- A material whose constants are infinite or NaN. -/
structure Material.Wild (m : Material (Dbl fp)) : Prop where
  lambda : NotFin m.lambda
  plane : NotFin (m.E / ((1 + m.nu) * (1 - ((2 : Nat) : Dbl fp) * m.nu)))
  plastic : NotFin m.k ∨ NotFin m.mu

theorem plasticStep_wild {m : Material (Dbl fp)} (h : m.Wild) (eps epsP : Nat → Dbl fp) (alpha : Dbl fp) {v : Nat}
    (hv : v < 3) : NotFin ((plasticStep m eps epsP alpha).stress v) := by
  have key : ∀ (dl : Dbl fp) (n : Nat → Dbl fp), NotFin (plasticStress m eps (sigTrial m eps epsP) dl n v) := by
    intro dl n
    unfold plasticStress
    simp only
    refine NotFin.sub_l ?_ _
    rw [if_pos hv]
    rcases h.plastic with h | h
    · exact (h.mul_l _).add_r _
    · refine NotFin.add_l ?_ _
      unfold sigTrial
      rw [if_pos hv]
      exact (h.mul_r _).mul_l _
  unfold plasticStep
  simp only
  split
  · dsimp only
    exact key _ _
  · dsimp only
    exact key _ _

theorem sig3_wild {m : Material (Dbl fp)} (h : m.Wild) (e gp : Nat) (eps : Nat → Dbl fp) {v : Nat} (hv : v < 3) :
    NotFin (sig3 m vo e gp eps v) := by
  unfold sig3
  split
  · exact plasticStep_wild h _ _ _ hv
  · unfold elasticStress3D
    rw [if_pos hv]
    exact (h.lambda.mul_l _).add_l _

theorem gpCtan_wild {ex ey ez : Nat} (h : (matOf c (c.el ex ey ez)).Wild) (gp : Nat) :
    NotFin (gpCtan c u vo ex ey ez gp 0 0) := by
  unfold gpCtan
  split
  · refine accum_at (P := fun t : Nat → Nat → Dbl fp => NotFin (t 0 0)) (k := 0) (by omega) (fun t => ?_)
      (fun i t _ ht => ?_)
    · rw [if_pos rfl]
      exact ((sig3_wild h _ _ _ (by omega)).sub_l _).div_l _
    · split
      · exact ((sig3_wild h _ _ _ (by omega)).sub_l _).div_l _
      · exact ht
  · show NotFin ((0 + (matOf c (c.el ex ey ez)).lambda) + ((2 : Nat) : Dbl fp) * (matOf c (c.el ex ey ez)).mu)
    exact (h.lambda.add_r _).add_l _

/-- The material of an element has infinite constants. -/
def Cfg.WildElem (c : Cfg (Dbl fp)) (ex ey ez : Nat) : Prop := (matOf c (c.el ex ey ez)).Wild

theorem elemRhs3_wild {ex ey ez : Nat} (h : c.WildElem ex ey ez) (i : Nat) :
    NotFin (elemRhs3 c u vo ex ey ez i) := by
  unfold elemRhs3
  refine accum_at (P := fun b : Nat → Dbl fp => NotFin (b i)) (k := 0) (by omega) (fun b => ?_) (fun gp b _ _ => ?_)
  all_goals
    refine NotFin.accum (f := fun j => bmat3D c.dx c.dy c.dz _ j i * gpSig c u vo ex ey ez _ j * wg3D c) (k := 0)
      (by omega) ?_ _
    unfold gpSig
    exact ((sig3_wild h _ _ _ (by omega)).mul_r _).mul_l _

theorem elemMat3_wild {ex ey ez : Nat} (h : c.WildElem ex ey ez) (q : Nat) :
    NotFin (elemMat3 c u vo ex ey ez q) := by
  unfold elemMat3
  refine accum_at (P := fun b : Nat → Dbl fp => NotFin (b q)) (k := 0) (by omega) (fun b => ?_) (fun gp b _ _ => ?_)
  all_goals
    refine NotFin.accum (f := fun k => bmat3D c.dx c.dy c.dz _ k (q / 24)
      * accum 6 (fun l y => y + gpCtan c u vo ex ey ez _ k l * bmat3D c.dx c.dy c.dz _ l (q % 24)) 0
      * wg3D c) (k := 0) (by omega) ?_ _
    refine (NotFin.mul_r ?_ _).mul_l _
    exact NotFin.accum (f := fun l => gpCtan c u vo ex ey ez _ 0 l * bmat3D c.dx c.dy c.dz _ l (q % 24)) (k := 0)
      (by omega) ((gpCtan_wild h _).mul_l _) _

theorem ctan2D_wild {m : Material (Dbl fp)} (h : m.Wild) (i j : Nat) : NotFin (ctan2D m i j) :=
  h.plane.mul_r _

theorem elemRhs2_wild {ex ey : Nat} (h : c.WildElem ex ey 0) (i : Nat) : NotFin (elemRhs2 c u ex ey i) := by
  unfold elemRhs2
  refine accum_at (P := fun b : Nat → Dbl fp => NotFin (b i)) (k := 0) (by omega) (fun b => ?_) (fun gp b _ _ => ?_)
  all_goals
    refine NotFin.accum (f := fun j => bmat2D c.dx c.dy _ j i
      * sig2 (matOf c (c.el ex ey 0)) (strain2 c u ex ey _) j * wg2D c) (k := 0) (by omega) ?_ _
    refine (NotFin.mul_r ?_ _).mul_l _
    unfold sig2
    exact NotFin.accum (f := fun j => ctan2D (matOf c (c.el ex ey 0)) 0 j * strain2 c u ex ey _ j) (k := 0)
      (by omega) ((ctan2D_wild h _ _).mul_l _) _

theorem elemMat2_wild {ex ey : Nat} (h : c.WildElem ex ey 0) (q : Nat) : NotFin (elemMat2 c ex ey q) := by
  unfold elemMat2
  refine accum_at (P := fun b : Nat → Dbl fp => NotFin (b q)) (k := 0) (by omega) (fun b => ?_) (fun gp b _ _ => ?_)
  all_goals
    refine NotFin.accum (f := fun k => bmat2D c.dx c.dy _ k (q / 8)
      * accum 3 (fun l t => t + ctan2D (matOf c (c.el ex ey 0)) k l * bmat2D c.dx c.dy _ l (q % 8)) 0
      * wg2D c) (k := 0) (by omega) ?_ _
    refine (NotFin.mul_r ?_ _).mul_l _
    exact NotFin.accum (f := fun l => ctan2D (matOf c (c.el ex ey 0)) 0 l * bmat2D c.dx c.dy _ l (q % 8)) (k := 0)
      (by omega) ((ctan2D_wild h _ _).mul_l _) _

/-! ## Assembly -/

/-- A loop with a property that no step destroys and one step establishes. -/
theorem loop_gain {σ : Type} {f : Nat → σ → M σ} {Q P : σ → Prop} {G : Prop} {n k0 : Nat} {s : σ} (hQ : Q s)
    (h : ∀ i s, i < n → Q s → ∃ s', f i s = .ok s' ∧ Q s' ∧ (P s → P s') ∧ (G → i = k0 → P s')) :
    ∃ s', loop n f s = .ok s' ∧ Q s' ∧ (P s → P s') ∧ (G → k0 < n → P s') := by
  induction n with
  | zero => exact ⟨s, rfl, hQ, id, fun _ h => absurd h (by omega)⟩
  | succ n ih =>
    obtain ⟨s1, h1, h2, h3, h4⟩ := ih fun i s hi => h i s (by omega)
    obtain ⟨s2, k1, k2, k3, k4⟩ := h n s1 (by omega) h2
    refine ⟨s2, by rw [loop_succ, h1]; exact k1, k2, fun h => k3 (h3 h), fun hG hk => ?_⟩
    by_cases e : n = k0
    · exact k4 hG e
    · exact k3 (h4 hG (by omega))

/-- Adding an element matrix keeps an infinite entry, and an infinite element matrix makes the diagonal
infinite. -/
theorem addLoops_wild {nF W npe nn : Nat} {sn : Nat → Nat} {cr : Nat → Nat → Nat} {Ae v : Buf (Dbl fp)}
    (hAe : Ae.size = npe * nF * (npe * nF)) (hsn : ∀ k, k < npe → sn k < nn)
    (hcr : ∀ k n, k < npe → n < npe → cr k n < W) (hv : v.size = W * nF * (nn * nF)) {n0 d0 s0 d1 : Nat}
    (hd0 : d0 < nF) (hd1 : d1 < nF) (k0 : Nat) :
    ∃ v', addLoops nF W npe sn cr Ae v = .ok v' ∧ v'.size = W * nF * (nn * nF) ∧
      (NotFin (v.val (slotIx nF W n0 d0 s0 d1)) → NotFin (v'.val (slotIx nF W n0 d0 s0 d1))) ∧
      (k0 < npe ∧ sn k0 = n0 ∧ cr k0 k0 = s0 ∧ (∀ q, NotFin (Ae.val q)) →
        NotFin (v'.val (slotIx nF W n0 d0 s0 d1))) := by
  let Q : Buf (Dbl fp) → Prop := fun v => v.size = W * nF * (nn * nF)
  let P : Buf (Dbl fp) → Prop := fun v => NotFin (v.val (slotIx nF W n0 d0 s0 d1))
  let G : Prop := k0 < npe ∧ sn k0 = n0 ∧ cr k0 k0 = s0 ∧ ∀ q, NotFin (Ae.val q)
  have key : ∃ v', addLoops nF W npe sn cr Ae v = .ok v' ∧ Q v' ∧ (P v → P v') ∧ (G → d0 < nF → P v') := by
    unfold addLoops
    refine loop_gain (Q := Q) (P := P) (G := G) (k0 := d0) hv fun i v hi hv => ?_
    have : ∃ v', _ = Except.ok v' ∧ Q v' ∧ (P v → P v') ∧ (G ∧ i = d0 → k0 < npe → P v') :=
      loop_gain (Q := Q) (P := P) (G := G ∧ i = d0) (k0 := k0) hv fun n v hn hv => by
        have : ∃ v', _ = Except.ok v' ∧ Q v' ∧ (P v → P v') ∧ ((G ∧ i = d0) ∧ n = k0 → k0 < npe → P v') :=
          loop_gain (Q := Q) (P := P) (G := (G ∧ i = d0) ∧ n = k0) (k0 := k0) hv fun k v hk hv => by
            have : ∃ v', _ = Except.ok v' ∧ Q v' ∧ (P v → P v') ∧
                (((G ∧ i = d0) ∧ n = k0) ∧ k = k0 → d1 < nF → P v') :=
              loop_gain (Q := Q) (P := P) (G := ((G ∧ i = d0) ∧ n = k0) ∧ k = k0) (k0 := d1) hv
                (f := fun j v => do
                  let a ← v.read (sn k * (nF * (W * nF)) + i * (W * nF) + cr k n * nF + j)
                  let e ← Ae.read (k * (npe * nF * nF) + i * (npe * nF) + n * nF + j)
                  v.write (sn k * (nF * (W * nF)) + i * (W * nF) + cr k n * nF + j) (a + e))
                fun j v hj hv => by
                  have e1 : sn k * (nF * (W * nF)) + i * (W * nF) + cr k n * nF + j
                      = slotIx nF W (sn k) i (cr k n) j := ix_form_add
                  have e2 : k * (npe * nF * nF) + i * (npe * nF) + n * nF + j
                      = (k * nF + i) * (npe * nF) + (n * nF + j) := by ring
                  have hv : v.size = W * nF * (nn * nF) := hv
                  rw [e1, e2]
                  have hlt := slotIx_lt (hsn k hk) hi (hcr k n hk hn) hj
                  have hlt2 : (k * nF + i) * (npe * nF) + (n * nF + j) < npe * nF * (npe * nF) :=
                    mul_add_lt (mul_add_lt hk hi) (mul_add_lt hn hj)
                  rw [Buf.read_ok (by rw [hv]; exact hlt), M_bind_ok', Buf.read_ok (by rw [hAe]; exact hlt2),
                    M_bind_ok', Buf.write_ok _ (by rw [hv]; exact hlt)]
                  refine ⟨_, rfl, hv, fun h => ?_, ?_⟩
                  · show NotFin (if slotIx nF W n0 d0 s0 d1 = slotIx nF W (sn k) i (cr k n) j then _ else _)
                    split
                    · rename_i e
                      rw [← e]
                      exact NotFin.add_l h _
                    · exact h
                  · rintro ⟨⟨⟨hG, rfl⟩, rfl⟩, rfl⟩ rfl
                    show NotFin (if slotIx nF W n0 i s0 j = slotIx nF W (sn k) i (cr k k) j then _ else _)
                    rw [hG.2.1, hG.2.2.1, if_pos rfl]
                    exact (hG.2.2.2 _).add_r _
            obtain ⟨v', h1, h2, h3, h4⟩ := this
            exact ⟨v', h1, h2, h3, fun hG e => h4 ⟨hG, e⟩ hd1⟩
        obtain ⟨v', h1, h2, h3, h4⟩ := this
        exact ⟨v', h1, h2, h3, fun hG e => h4 ⟨hG, e⟩ hG.1.1⟩
    obtain ⟨v', h1, h2, h3, h4⟩ := this
    exact ⟨v', h1, h2, h3, fun hG e => h4 ⟨hG, e⟩ hG.1⟩
  obtain ⟨v', h1, h2, h3, h4⟩ := key
  exact ⟨v', h1, h2, h3, fun hG => h4 hG hd0⟩

theorem scatterVal_keepInf {n : Nat} {index : Nat → Nat} {be f : Nat → Dbl fp} {q : Nat} (h : NotFin (f q)) :
    NotFin (scatterVal n index be f q) := by
  unfold scatterVal
  refine accum_keep (P := fun f : Nat → Dbl fp => NotFin (f q)) h fun i f _ hf => ?_
  show NotFin (if q = index i then _ else _)
  split
  · rename_i e; rw [← e]; exact hf.add_l _
  · exact hf

theorem scatterVal_inf {n : Nat} {index : Nat → Nat} {be f : Nat → Dbl fp} {i : Nat} (hi : i < n)
    (h : NotFin (be i)) : NotFin (scatterVal n index be f (index i)) := by
  unfold scatterVal
  refine accum_at (P := fun f : Nat → Dbl fp => NotFin (f (index i))) hi (fun f => ?_) (fun i' f _ hf => ?_)
  · show NotFin (if index i = index i then _ else _)
    rw [if_pos rfl]; exact h.add_r _
  · show NotFin (if index i = index i' then _ else _)
    split
    · rename_i e; rw [← e]; exact hf.add_l _
    · exact hf

/-- An interior node with an element whose constants are infinite. -/
structure Cfg.WildNode (c : Cfg (Dbl fp)) (ix iy iz ex ey ez a : Nat) : Prop where
  x : 0 < ix ∧ ix + 1 < c.nx
  y : 0 < iy ∧ iy + 1 < c.ny
  z : 0 < iz ∧ iz + 1 < c.nz
  inX : ex < c.nx - 1
  inY : ey < c.ny - 1
  inZ : ez < c.nz - 1
  loc : a < 8
  corner : enode3 c.nx c.ny ex ey ez a = node3 c.nx c.ny ix iy iz
  elem : c.WildElem ex ey ez

theorem Cfg.WildNode.resid {ix iy iz ex ey ez a : Nat} (h : c.WildNode ix iy iz ex ey ez a) (f : Nat → Dbl fp) :
    NotFin (resid3 c u vo f (node3 c.nx c.ny ix iy iz * 3 + 0)) := by
  have hx := h.x; have hy := h.y; have hz := h.z; have ha := h.loc
  have hlt : node3 c.nx c.ny ix iy iz * 3 + 0 < c.nx * c.ny * c.nz * 3 :=
    mul_add_lt (node3_lt (by omega) (by omega) (by omega)) (by omega)
  unfold resid3
  simp only
  rw [if_pos hlt, if_neg (by
    rw [bdryDof3_iff (by omega) (by omega) (by omega)]
    unfold Bdry3; omega)]
  refine NotFin.neg ?_
  have e : edof3 c.nx c.ny ex ey ez (a * 3) = node3 c.nx c.ny ix iy iz * 3 + 0 := by
    unfold edof3
    rw [Nat.mul_div_cancel _ (by omega), h.corner, Nat.mul_mod_left]
  rw [← e]
  unfold fint3
  exact accum3_at (P := fun f : Nat → Dbl fp => NotFin (f (edof3 c.nx c.ny ex ey ez (a * 3)))) h.inX h.inY h.inZ
    (fun f => scatterVal_inf (by omega) (elemRhs3_wild h.elem _)) (fun i j k f hf => scatterVal_keepInf hf)

theorem assemblyMat_wild (hc : c.Ok) (hd : c.dim = 3) {w w' : Work (Dbl fp)} (hw : w.Ok c)
    (h : assemblyMat c w = .ok w') {ix iy iz ex0 ey0 ez0 a0 : Nat} (hv : c.WildNode ix iy iz ex0 ey0 ez0 a0) :
    NotFin (w'.A.vals.val (slotIx 3 27 (node3 c.nx c.ny ix iy iz) 0 13 0)) := by
  unfold assemblyMat at h
  have hA := hw.A3 hd
  have hu := hw.u3 hd
  have hx := hv.x; have hy := hv.y; have hz := hv.z
  have ha := hv.loc
  have hsl : colsRow3D a0 a0 = 13 := by
    have : ∀ a, a < 8 → colsRow3D a a = 13 := by decide
    exact this a0 ha
  obtain ⟨v0, h0, h0', h0''⟩ := ellSetZeroMat_eq hA.vals_size
  rw [h0, M_bind_ok', if_neg (by omega), if_pos hd] at h
  let Q : MatState (Dbl fp) → Prop := fun s =>
    (s.A.nnz = 27 * 3 ∧ s.A.vals.size = 27 * 3 * (c.nx * c.ny * c.nz * 3)) ∧ s.varsNew.size = c.numIntVars
  let P : MatState (Dbl fp) → Prop := fun s =>
    NotFin (s.A.vals.val (slotIx 3 27 (node3 c.nx c.ny ix iy iz) 0 13 0))
  have key : ∃ s', loop (c.nx - 1) (fun ex s => loop (c.ny - 1) (fun ey s => loop (c.nz - 1) (fun ez s => do
      let r ← getElemMat3D c w.u w.varsOld s.varsNew ex ey ez
      let A ← ellAddStruct3D s.A ex ey ez ⟨576, r.Ae⟩ c.dim c.nx c.ny c.nz
      pure { A := A, varsNew := r.varsNew }) s) s) (⟨{ w.A with vals := v0 }, w.varsNew⟩ : MatState (Dbl fp)) = .ok s' ∧
      Q s' ∧ (P ⟨{ w.A with vals := v0 }, w.varsNew⟩ → P s') ∧ (True → ex0 < c.nx - 1 → P s') := by
    refine loop_gain (Q := Q) (P := P) (G := True) (k0 := ex0)
      ⟨⟨hA.nnz, by show v0.size = _; rw [h0', hA.nnz, hA.nrow]⟩, hw.varsNew⟩ fun ex s hex hs => ?_
    have : ∃ s', _ = Except.ok s' ∧ Q s' ∧ (P s → P s') ∧ (ex = ex0 → ey0 < c.ny - 1 → P s') :=
      loop_gain (Q := Q) (P := P) (G := ex = ex0) (k0 := ey0) hs fun ey s hey hs => by
        have : ∃ s', _ = Except.ok s' ∧ Q s' ∧ (P s → P s') ∧ (ex = ex0 ∧ ey = ey0 → ez0 < c.nz - 1 → P s') :=
          loop_gain (Q := Q) (P := P) (G := ex = ex0 ∧ ey = ey0) (k0 := ez0) hs (f := fun ez s => do
            let r ← getElemMat3D c w.u w.varsOld s.varsNew ex ey ez
            let A ← ellAddStruct3D s.A ex ey ez ⟨576, r.Ae⟩ c.dim c.nx c.ny c.nz
            pure { A := A, varsNew := r.varsNew }) fun ez s hez hs => by
            obtain ⟨v, e1, e2, e3, e4⟩ := addLoops_wild (nF := 3) (W := 27) (npe := 8) (nn := c.nx * c.ny * c.nz)
              (sn := sn3D c.nx c.ny ex ey ez) (cr := colsRow3D)
              (Ae := ⟨576, elemMat3 c w.u.val w.varsOld ex ey ez⟩) (v := s.A.vals) rfl
              (fun k hk => by rw [sn3D_eq hk]; exact enode3_lt (by omega) (by omega) (by omega) hk)
              (fun k n hk hn => (colsRow3D_spec k hk n hn).1) hs.1.2 (n0 := node3 c.nx c.ny ix iy iz) (d0 := 0)
              (s0 := 13) (d1 := 0) (by omega) (by omega) a0
            refine ⟨⟨{ s.A with vals := v }, elemMatPut c w.u.val w.varsOld ex ey ez s.varsNew⟩, ?_,
              ⟨⟨hs.1.1, e2⟩, by simpa using hs.2⟩, e3, ?_⟩
            · rw [getElemMat3D_eq hc hd hu hw.varsOld hs.2 hex hey hez, M_bind_ok', hd,
                ellAddStruct3D_loops hs.1.1 e1]
              rfl
            · rintro ⟨rfl, rfl⟩ rfl
              exact e4 ⟨ha, by rw [sn3D_eq ha]; exact hv.corner, hsl, fun q => elemMat3_wild hv.elem q⟩
        obtain ⟨s', h1, h2, h3, h4⟩ := this
        exact ⟨s', h1, h2, h3, fun e e' => h4 ⟨e, e'⟩ hv.inZ⟩
    obtain ⟨s', h1, h2, h3, h4⟩ := this
    exact ⟨s', h1, h2, h3, fun _ e => h4 e hv.inY⟩
  obtain ⟨s1, h1, h1', -, h1''⟩ := key
  rw [h1, M_bind_ok'] at h
  obtain ⟨v, k1, k2, k3⟩ := ellSetBc3D_eq (m := s1.A) hc.nx hc.ny (hc.nz3 hd) h1'.1.1 h1'.1.2
  rw [hd, k1, M_bind_ok'] at h
  cases h
  show NotFin (v.val _)
  rw [(k3 ix iy iz 0 13 0 (by omega) (by omega) (by omega) (by omega) (by omega) (by omega)).2 ?_]
  · exact h1'' trivial hv.inX
  · unfold bc3 Bdry3
    omega

/-! ## Two dimensions -/

/-- An interior node with an element whose constants are infinite. -/
structure Cfg.WildNode2 (c : Cfg (Dbl fp)) (ix iy ex ey a : Nat) : Prop where
  x : 0 < ix ∧ ix + 1 < c.nx
  y : 0 < iy ∧ iy + 1 < c.ny
  inX : ex < c.nx - 1
  inY : ey < c.ny - 1
  loc : a < 4
  corner : enode2 c.nx ex ey a = node2 c.nx ix iy
  elem : c.WildElem ex ey 0

theorem Cfg.WildNode2.resid {ix iy ex ey a : Nat} (h : c.WildNode2 ix iy ex ey a) (f : Nat → Dbl fp) :
    NotFin (resid2 c u f (node2 c.nx ix iy * 2 + 0)) := by
  have hx := h.x; have hy := h.y; have ha := h.loc
  have hlt : node2 c.nx ix iy * 2 + 0 < c.nx * c.ny * 2 :=
    mul_add_lt (node2_lt (by omega) (by omega)) (by omega)
  unfold resid2
  simp only
  rw [if_pos hlt, if_neg (by
    rw [bdryDof2_iff (by omega) (by omega)]
    unfold Bdry2; omega)]
  refine NotFin.neg ?_
  have e : edof2 c.nx ex ey (a * 2) = node2 c.nx ix iy * 2 + 0 := by
    unfold edof2
    rw [Nat.mul_div_cancel _ (by omega), h.corner, Nat.mul_mod_left]
  rw [← e]
  unfold fint2
  exact accum2_at (P := fun f : Nat → Dbl fp => NotFin (f (edof2 c.nx ex ey (a * 2)))) h.inX h.inY
    (fun f => scatterVal_inf (by omega) (elemRhs2_wild h.elem _)) (fun i j f hf => scatterVal_keepInf hf)

theorem assemblyMat_wild2 (hc : c.Ok) (hd : c.dim = 2) {w w' : Work (Dbl fp)} (hw : w.Ok c)
    (h : assemblyMat c w = .ok w') {ix iy ex0 ey0 a0 : Nat} (hv : c.WildNode2 ix iy ex0 ey0 a0) :
    NotFin (w'.A.vals.val (slotIx 2 9 (node2 c.nx ix iy) 0 4 0)) := by
  unfold assemblyMat at h
  have hA := hw.A2 hd
  have hx := hv.x; have hy := hv.y
  have ha := hv.loc
  have hsl : colsRow2D a0 a0 = 4 := by
    have : ∀ a, a < 4 → colsRow2D a a = 4 := by decide
    exact this a0 ha
  obtain ⟨v0, h0, h0', h0''⟩ := ellSetZeroMat_eq hA.vals_size
  rw [h0, M_bind_ok', if_pos hd] at h
  let Q : Ell (Dbl fp) → Prop := fun A => A.nnz = 9 * 2 ∧ A.vals.size = 9 * 2 * (c.nx * c.ny * 2)
  let P : Ell (Dbl fp) → Prop := fun A => NotFin (A.vals.val (slotIx 2 9 (node2 c.nx ix iy) 0 4 0))
  have key : ∃ A', loop (c.nx - 1) (fun ex A => loop (c.ny - 1) (fun ey A => do
      let Ae ← getElemMat2D c ex ey
      ellAddStruct2D A ex ey Ae c.dim c.nx c.ny) A) { w.A with vals := v0 } = .ok A' ∧
      Q A' ∧ (P { w.A with vals := v0 } → P A') ∧ (True → ex0 < c.nx - 1 → P A') := by
    refine loop_gain (Q := Q) (P := P) (G := True) (k0 := ex0)
      ⟨hA.nnz, by show v0.size = _; rw [h0', hA.nnz, hA.nrow]⟩ fun ex A hex hs => ?_
    have : ∃ A', _ = Except.ok A' ∧ Q A' ∧ (P A → P A') ∧ (ex = ex0 → ey0 < c.ny - 1 → P A') :=
      loop_gain (Q := Q) (P := P) (G := ex = ex0) (k0 := ey0) hs (f := fun ey A => do
        let Ae ← getElemMat2D c ex ey
        ellAddStruct2D A ex ey Ae c.dim c.nx c.ny) fun ey A hey hs => by
        obtain ⟨v, e1, e2, e3, e4⟩ := addLoops_wild (nF := 2) (W := 9) (npe := 4) (nn := c.nx * c.ny)
          (sn := sn2D c.nx ex ey) (cr := colsRow2D) (Ae := ⟨64, elemMat2 c ex ey⟩) (v := A.vals) rfl
          (fun k hk => by rw [sn2D_eq hk]; exact enode2_lt (by omega) (by omega))
          (fun k n hk hn => (colsRow2D_spec k hk n hn).1) hs.2 (n0 := node2 c.nx ix iy) (d0 := 0)
          (s0 := 4) (d1 := 0) (by omega) (by omega) a0
        refine ⟨{ A with vals := v }, ?_, ⟨hs.1, e2⟩, e3, ?_⟩
        · rw [getElemMat2D_eq hc hd hex hey, M_bind_ok', hd, ellAddStruct2D_loops hs.1 e1]
        · rintro rfl rfl
          exact e4 ⟨ha, by rw [sn2D_eq ha]; exact hv.corner, hsl, fun q => elemMat2_wild hv.elem q⟩
    obtain ⟨s', h1, h2, h3, h4⟩ := this
    exact ⟨s', h1, h2, h3, fun _ e => h4 e hv.inY⟩
  obtain ⟨A1, h1, h1', -, h1''⟩ := key
  rw [h1, M_bind_ok'] at h
  obtain ⟨v, k1, k2, k3⟩ := ellSetBc2D_eq (m := A1) hc.nx hc.ny h1'.1 h1'.2
  rw [hd, k1, M_bind_ok'] at h
  cases h
  show NotFin (v.val _)
  rw [(k3 ix iy 0 4 0 (by omega) (by omega) (by omega) (by omega) (by omega)).2 ?_]
  · exact h1'' trivial hv.inX
  · unfold bc2 Bdry2
    simp
    omega

/-! ## Newton iterations -/

/-- A row of the cell problem with an infinity or NaN on the diagonal and on the right-hand side, whatever the
displacements are. -/
structure Cfg.Burst (c : Cfg (Dbl fp)) (W slot n : Nat) : Prop where
  inRow : slot < W
  node : n < c.nn
  dim : 0 < c.dim
  big : c.Big
  nnz : ∀ {w : Work (Dbl fp)}, w.Ok c → w.A.nnz = W * c.dim
  solve : ∀ (env : Env (Dbl fp)) (w : Work (Dbl fp)), Verif.solve env c w = (do
    let r ← cgSolve (env.cgJunk w.tick) { maxIts := cgMaxIts, its := env.solverIts w.tick, minTol := cgMaxTol,
                                          err := env.solverErr w.tick } w.A c.dim c.nn slot w.b w.du
    pure { w with du := r.2, tick := w.tick + 1 })
  mat : ∀ {w w' : Work (Dbl fp)}, w.Ok c → assemblyMat c w = .ok w' →
    NotFin (w'.A.vals.val (slotIx c.dim W n 0 slot 0))
  rhs : ∀ {w : Work (Dbl fp)} {r : RhsOut (Dbl fp)}, w.Ok c → assemblyRhs c w = .ok r →
    NotFin (r.work.b.val (n * c.dim + 0)) ∧ r.norm = normOf (c.nn * c.dim) r.work.b.val

theorem Cfg.WildNode.burst {ix iy iz ex ey ez a : Nat} (hv : c.WildNode ix iy iz ex ey ez a) (hc : c.Ok)
    (hd : c.dim = 3) : c.Burst 27 13 (node3 c.nx c.ny ix iy iz) where
  inRow := by omega
  node := by
    have hx := hv.x; have hy := hv.y; have hz := hv.z
    show _ < c.nx * c.ny * c.nz
    exact node3_lt (by omega) (by omega) (by omega)
  dim := by omega
  big := by
    have hx := hv.x; have hy := hv.y; have hz := hv.z
    exact ⟨by omega, by omega, fun _ => by omega⟩
  nnz hw := by rw [(hw.A3 hd).nnz, hd]
  solve env w := by
    unfold Verif.solve
    rw [if_neg (by omega), if_pos hd]
    simp only [ellSolveCgpdStruct]
    rw [if_pos (Or.inr hd), if_neg (by omega)]
    cases cgSolve (env.cgJunk w.tick) ⟨cgMaxIts, env.solverIts w.tick, cgMaxTol, env.solverErr w.tick⟩
      w.A c.dim c.nn 13 w.b w.du <;> rfl
  mat hw h := by rw [hd]; exact assemblyMat_wild hc hd hw h hv
  rhs {w r} hw h := by
    have hN : c.nn * c.dim = c.nx * c.ny * c.nz * 3 := by rw [hd]; rfl
    rw [assemblyRhs3_eq hc hd (hw.u3 hd) (by rw [hw.b, hN]) hw.varsOld hw.varsNew] at h
    cases h
    rw [hN, hd]
    exact ⟨hv.resid _, rfl⟩

theorem Cfg.WildNode2.burst {ix iy ex ey a : Nat} (hv : c.WildNode2 ix iy ex ey a) (hc : c.Ok) (hd : c.dim = 2) :
    c.Burst 9 4 (node2 c.nx ix iy) where
  inRow := by omega
  node := by
    have hx := hv.x; have hy := hv.y
    rw [hc.nn2 hd]
    exact node2_lt (by omega) (by omega)
  dim := by omega
  big := by
    have hx := hv.x; have hy := hv.y
    exact ⟨by omega, by omega, fun h => by omega⟩
  nnz hw := by rw [(hw.A2 hd).nnz, hd]
  solve env w := by
    unfold Verif.solve
    rw [if_pos hd]
    simp only [ellSolveCgpd2D, hc.nn2 hd]
    cases cgSolve (env.cgJunk w.tick) ⟨cgMaxIts, env.solverIts w.tick, cgMaxTol, env.solverErr w.tick⟩
      w.A c.dim (c.nx * c.ny) 4 w.b w.du <;> rfl
  mat hw h := by rw [hd]; exact assemblyMat_wild2 hc hd hw h hv
  rhs {w r} hw h := by
    have hN : c.nn * c.dim = c.nx * c.ny * 2 := by rw [hc.nn2 hd, hd]
    rw [assemblyRhs2_eq hc hd (by rw [hw.u, hN]) (by rw [hw.b, hN])] at h
    cases h
    rw [hN, hd]
    exact ⟨hv.resid _, rfl⟩

/-- Every element has an interior corner. -/
theorem Cfg.WildElem.burst (hc : c.Ok) (hB : c.Big) {ex ey ez : Nat} (h : c.WildElem ex ey ez)
    (hx : ex < c.nx - 1) (hy : ey < c.ny - 1) (h2 : c.dim = 2 → ez = 0) (h3 : c.dim = 3 → ez < c.nz - 1) :
    ∃ W slot n, c.Burst W slot n := by
  have := hB.nx
  have := hB.ny
  rcases hc.dim with hd | hd
  · have := h2 hd
    subst this
    have key : ∀ a, a < 4 → 0 < ex + cornerX a ∧ ex + cornerX a + 1 < c.nx →
        0 < ey + cornerY a ∧ ey + cornerY a + 1 < c.ny → ∃ W slot n, c.Burst W slot n := fun a ha k1 k2 =>
      ⟨_, _, _, Cfg.WildNode2.burst (ex := ex) (ey := ey) (a := a) ⟨k1, k2, hx, hy, ha, rfl, h⟩ hc hd⟩
    by_cases e0 : ex = 0 <;> by_cases e1 : ey = 0
    · refine key 2 (by omega) ?_ ?_ <;> simp [cornerX, cornerY] <;> omega
    · refine key 1 (by omega) ?_ ?_ <;> simp [cornerX, cornerY] <;> omega
    · refine key 3 (by omega) ?_ ?_ <;> simp [cornerX, cornerY] <;> omega
    · refine key 0 (by omega) ?_ ?_ <;> simp [cornerX, cornerY] <;> omega
  · have hz := h3 hd
    have := hB.nz hd
    have key : ∀ a, a < 8 → 0 < ex + cornerX a ∧ ex + cornerX a + 1 < c.nx →
        0 < ey + cornerY a ∧ ey + cornerY a + 1 < c.ny → 0 < ez + cornerZ a ∧ ez + cornerZ a + 1 < c.nz →
        ∃ W slot n, c.Burst W slot n := fun a ha k1 k2 k3 =>
      ⟨_, _, _, Cfg.WildNode.burst (ex := ex) (ey := ey) (ez := ez) (a := a)
        ⟨k1, k2, k3, hx, hy, hz, ha, rfl, h⟩ hc hd⟩
    by_cases e0 : ex = 0 <;> by_cases e1 : ey = 0 <;> by_cases e2 : ez = 0
    · refine key 6 (by omega) ?_ ?_ ?_ <;> simp [cornerX, cornerY, cornerZ] <;> omega
    · refine key 2 (by omega) ?_ ?_ ?_ <;> simp [cornerX, cornerY, cornerZ] <;> omega
    · refine key 5 (by omega) ?_ ?_ ?_ <;> simp [cornerX, cornerY, cornerZ] <;> omega
    · refine key 1 (by omega) ?_ ?_ ?_ <;> simp [cornerX, cornerY, cornerZ] <;> omega
    · refine key 7 (by omega) ?_ ?_ ?_ <;> simp [cornerX, cornerY, cornerZ] <;> omega
    · refine key 3 (by omega) ?_ ?_ ?_ <;> simp [cornerX, cornerY, cornerZ] <;> omega
    · refine key 4 (by omega) ?_ ?_ ?_ <;> simp [cornerX, cornerY, cornerZ] <;> omega
    · refine key 0 (by omega) ?_ ?_ ?_ <;> simp [cornerX, cornerY, cornerZ] <;> omega

variable {env : Env (Dbl fp)}

theorem nrCorrect_wild (hc : c.Ok) {w w' : Work (Dbl fp)} (hw : w.Ok c) (h : nrCorrect env c w = .ok w')
    {W slot n : Nat} (hv : c.Burst W slot n) (hb : NotFin (w.b.val (n * c.dim + 0))) {q : Nat}
    (hq : q < c.nn * c.dim) : IsNan (w'.u.val q) := by
  obtain ⟨A, vn, du, h1, h2, h3, -⟩ := nrCorrect_eq (env := env) hc hw
  obtain ⟨A', vn', k1, k2, -, k4⟩ := assemblyMat_bc hc hw
  rw [h1] at k1
  cases k1
  rw [h3] at h
  cases h
  show IsNan (if q < c.nn * c.dim then w.u.val q + du.val q else w.u.val q)
  rw [if_pos hq]
  refine IsNan.add_r _ ?_
  let w1 : Work (Dbl fp) := { w with
    A := A, varsNew := vn
    du := ⟨c.nn * c.dim, fun k => if k < c.nn * c.dim then 0 else w.du.val k⟩ }
  have hw1 : w1.Ok c :=
    ⟨k2.u, rfl, k2.b, k2.elemStress, k2.elemStrain, k2.varsOld, k2.varsNew, k2.A2, k2.A3⟩
  obtain ⟨hwf, hnr⟩ := hw1.wf hc
  have hnr : A.nrow = c.nn * c.dim := hnr
  have hA := hv.mat hw h1
  rw [hv.solve, bind_ok_iff] at h2
  obtain ⟨⟨s', y⟩, e, h2⟩ := h2
  simp only [pure_ok_iff] at h2
  have e2 : du = y := (congrArg Work.du h2).symm
  rw [e2]
  exact cgSolve_wild hwf (hv.nnz hw1) hv.inRow (by rw [hnr]) (by rw [hw1.b, hnr]) (by rw [hw1.du, hnr])
    _ _ e hv.node hv.dim hA hb (by rw [hnr]; exact hq)

/-- `newton_raphson` with infinite constants leaves NaN at every node. -/
theorem newtonRaphson_wild (hc : c.Ok) {W slot n : Nat} (hv : c.Burst W slot n)
    {w : Work (Dbl fp)} (hw : w.Ok c) {out : NrOut (Dbl fp)} (h : newtonRaphson env c w = .ok out) :
    ∀ q, q < c.nn * c.dim → IsNan (out.work.u.val q) := by
  unfold newtonRaphson at h
  cases hf : env.fuel with
  | zero => rw [hf] at h; cases h
  | succ fuel =>
    rw [hf] at h
    obtain ⟨b, vn, nm, nl, h1, h2⟩ := rhs_ok hc hw
    rw [nrLoop, h1, M_bind_ok'] at h
    obtain ⟨hb, hnm⟩ := hv.rhs hw h1
    have hnm : nm = normOf (c.nn * c.dim) b.val := hnm
    have hlt : Scalar.lt nm nrMaxTol = false := by
      rw [hnm]; exact NotFin.norm (mul_add_lt hv.node hv.dim) hb _
    rw [if_neg (by rw [hlt]; exact Bool.false_ne_true), bind_ok_iff] at h
    obtain ⟨w', h5, h⟩ := h
    have h6 := fun q hq => nrCorrect_wild hc h2.ok h5 hv hb (q := q) hq
    cases hp : env.peek w'.tick with
    | none => rw [hp] at h; cases h
    | some v =>
      rw [hp] at h
      simp only at h
      split at h
      · have hok : w'.Ok c := by
          obtain ⟨A, vn, du, h1, h2', h3, h4⟩ := nrCorrect_eq (env := env) hc h2.ok
          rw [h3] at h5; cases h5; exact h4.ok
        have hok' : Work.Ok c { w' with tick := w'.tick + 1 } :=
          ⟨hok.u, hok.du, hok.b, hok.elemStress, hok.elemStrain, hok.varsOld, hok.varsNew, hok.A2, hok.A3⟩
        have hp' : Work.Poisoned c { w' with tick := w'.tick + 1 } := fun q hq _ => h6 q hq
        exact nrLoop_hit hc fuel hok' ((hp'.tainted hc hv.big).hit hc) h
      · cases h
        exact h6

/-- No Newton iterations end with a number. -/
def Cfg.Doomed (c : Cfg (Dbl fp)) : Prop :=
  ∀ (env : Env (Dbl fp)) (w : Work (Dbl fp)), w.Ok c → ∀ out : NrOut (Dbl fp), newtonRaphson env c w = .ok out →
    ∀ q, q < c.nn * c.dim → IsNan (out.work.u.val q)

theorem Cfg.Burst.doomed (hc : c.Ok) {W slot n : Nat} (hv : c.Burst W slot n) : c.Doomed :=
  fun _ _ hw _ h => newtonRaphson_wild hc hv hw h

/-- A cell problem. -/
theorem solveStrain_doomed (hc : c.Ok) (hB : c.Big) (hv : c.Doomed)
    {w : Work (Dbl fp)} (hw : w.Ok c) {eps : Nat → Dbl fp} {r : PertOut (Dbl fp)}
    (h : solveStrain env c w eps = .ok r) : r.nr.work.Poisoned c ∧ ∀ v, IsNan (r.sig v) := by
  unfold solveStrain at h
  simp only [bind_ok_iff, pure_ok_iff] at h
  obtain ⟨w1, h1, o, h2, a, h3, rfl⟩ := h
  obtain ⟨u, h1', hf1⟩ := setDispl_ok hc hw eps
  have hw1 : w1.Ok c := by rw [h1] at h1'; cases h1'; exact hf1.ok
  have hwo := ((newtonRaphson_safe (env := env) hc hw1).post h2).ok
  have hp : o.work.Poisoned c := fun q hq _ => hv _ _ hw1 _ h2 q hq
  refine ⟨hp, fun v => ?_⟩
  show IsNan (a.ave v)
  rw [calcAveStress_gen hc hwo h3]
  exact aveV_nan hc (inGrid_zero hc) (hp.elem hc hB (inGrid_zero hc)) v

/-- The constructor computes a tangent of NaN, and leaves NaN in the displacements. -/
theorem calcCtanLin_doomed (hc : c.Ok) (hB : c.Big) (hv : c.Doomed) {w : Work (Dbl fp)} (hw : w.Ok c)
    {ctan : Nat → Dbl fp} {r : CtanState (Dbl fp)} (h : calcCtanLin env c ctan w = .ok r) :
    r.work.Poisoned c ∧ ∀ v i, v < c.nvoi → i < c.nvoi → IsNan (r.ctan (v * c.nvoi + i)) := by
  unfold calcCtanLin at h
  have key := loop_ok_inv (fun n (s : CtanState (Dbl fp)) => s.work.Ok c ∧ (0 < n → s.work.Poisoned c) ∧
      (n ≤ c.nvoi → ∀ v i, v < c.nvoi → i < n → IsNan (s.ctan (v * c.nvoi + i)))) h
    ⟨hw, fun h => absurd h (lt_irrefl _), fun _ _ _ _ h => absurd h (by omega)⟩ (by
      rintro n s s' hn ⟨a1, -, a7⟩ hs
      simp only [bind_ok_iff, pure_ok_iff] at hs
      obtain ⟨r', hr', rfl⟩ := hs
      obtain ⟨k1, k2⟩ := solveStrain_doomed hc hB hv a1 hr'
      refine ⟨((solveStrain_safe (env := env) hc a1 _).post hr').ok, fun _ => k1, fun hn' v i hv hi => ?_⟩
      show IsNan (setCol c.nvoi n _ s.ctan (v * c.nvoi + i))
      by_cases e : i = n
      · subst e
        rw [setCol_at hn hv]
        exact (k2 v).div_l _
      · rw [setCol_off hn (by omega) e]
        exact a7 (by omega) v i hv (by omega))
  have h0 : 0 < c.nvoi := by unfold Cfg.nvoi; split <;> omega
  exact ⟨key.2.1 h0, key.2.2 le_rfl⟩

end Verif
