import Verif.Lemmas.FpMat
import Verif.Lemmas.FpNorm
import Verif.Lemmas.NewtonDescent
import Mathlib.Topology.Algebra.Ring.Real
import Mathlib.Topology.Order.Compact
import Mathlib.Analysis.SpecialFunctions.Sqrt

/-! # Limits of rounded quantities

Statements about all formats that are precise enough are statements about the limit along every
ultrafilter of formats whose precision tends to zero. -/

namespace Verif.Spec
open Filter Topology Finset

variable {ι : Type} {S : Fam ι} {l : Filter ι}

/-- The precision tends to zero along `l`. -/
def Fine (S : Fam ι) (l : Filter ι) : Prop := Tendsto (fun i => (S.fp i).u) l (𝓝 0)

/-- The rounded numbers `a` tend to `x`. -/
def Lim (S : Fam ι) (l : Filter ι) (a : (i : ι) → Fl (S.fp i)) (x : ℝ) : Prop :=
  Tendsto (fun i => (a i).val) l (𝓝 x)

theorem Fine.rnd (hl : Fine S l) {f : ι → ℝ} {x : ℝ} (hf : Tendsto f l (𝓝 x)) :
    Tendsto (fun i => (S.fp i).rnd (f i)) l (𝓝 x) := by
  have h0 : Tendsto (fun i => (S.fp i).u * |f i| + (S.fp i).u ^ 2) l (𝓝 0) := by
    have := (hl.mul hf.abs).add (hl.pow 2)
    simpa using this
  have h1 : Tendsto (fun i => (S.fp i).rnd (f i) - f i) l (𝓝 0) := by
    refine squeeze_zero_norm (fun i => ?_) h0
    rw [Real.norm_eq_abs]
    have := (S.fp i).err (f i)
    have := S.eta i
    linarith
  have := h1.add hf
  simpa using this

/-- Rounded quantities near exact ones have the limit of the exact ones. -/
theorem NearF.lim (hl : Fine S l) {d : Nat} {a : (i : ι) → Fl (S.fp i)} {x : ι → ℝ} {y : ℝ}
    (h : NearF S d a x) {B : ℝ} (hB : ∀ᶠ i in l, S.m i ≤ B) (hx : Tendsto x l (𝓝 y)) : Lim S l a y := by
  obtain ⟨K, hK, h⟩ := h
  have h0 : Tendsto (fun i => K * (S.fp i).u * B ^ d) l (𝓝 0) := by
    have := (hl.const_mul K).mul_const (B ^ d)
    simpa using this
  have h2 : ∀ᶠ i in l, K * (S.fp i).u ≤ 1 := by
    have : Tendsto (fun i => K * (S.fp i).u) l (𝓝 0) := by simpa using hl.const_mul K
    exact this.eventually_le_const (by norm_num)
  have h1 : Tendsto (fun i => (a i).val - x i) l (𝓝 0) := by
    refine squeeze_zero_norm' ?_ h0
    filter_upwards [h2, hB] with i hi hm
    rw [Real.norm_eq_abs]
    refine (h i hi).1.trans ?_
    have hm1 := S.one_le i
    have hu : 0 ≤ (S.fp i).u := (S.fp i).u_nonneg
    have : S.m i ^ d ≤ B ^ d := pow_le_pow_left₀ (by linarith) hm d
    exact mul_le_mul_of_nonneg_left this (by positivity)
  have := h1.add hx
  unfold Lim
  simpa using this

theorem NearF.lim0 (hl : Fine S l) {a : (i : ι) → Fl (S.fp i)} {y : ℝ}
    (h : NearF S 0 a fun _ => y) : Lim S l a y := by
  let S' : Fam ι := ⟨S.fp, fun _ => 1, fun _ => le_refl _, S.eta⟩
  have h' : NearF S' 0 a fun _ => y := by
    obtain ⟨K, hK, h⟩ := h
    exact ⟨K, hK, fun i hi => by simpa using h i hi⟩
  exact NearF.lim (S := S') hl h' (B := 1) (Eventually.of_forall fun _ => le_refl _) tendsto_const_nhds

namespace Lim

variable {a b : (i : ι) → Fl (S.fp i)} {x y : ℝ}

theorem congr {a' : (i : ι) → Fl (S.fp i)} (h : Lim S l a x) (ha : ∀ᶠ i in l, a i = a' i) :
    Lim S l a' x :=
  Tendsto.congr' (by filter_upwards [ha] with i hi; rw [hi]) h

theorem zero : Lim S l (fun _ => 0) 0 := tendsto_const_nhds

theorem add (hl : Fine S l) (h : Lim S l a x) (h' : Lim S l b y) :
    Lim S l (fun i => a i + b i) (x + y) := hl.rnd (Tendsto.add h h')

theorem sub (hl : Fine S l) (h : Lim S l a x) (h' : Lim S l b y) :
    Lim S l (fun i => a i - b i) (x - y) := hl.rnd (Tendsto.sub h h')

theorem mul (hl : Fine S l) (h : Lim S l a x) (h' : Lim S l b y) :
    Lim S l (fun i => a i * b i) (x * y) := hl.rnd (Tendsto.mul h h')

theorem neg (h : Lim S l a x) : Lim S l (fun i => -a i) (-x) := Tendsto.neg h

theorem div (hl : Fine S l) (h : Lim S l a x) (h' : Lim S l b y) (hy : y ≠ 0) :
    Lim S l (fun i => a i / b i) (x / y) := by
  refine Tendsto.congr' ?_ (hl.rnd (Tendsto.div h h' hy))
  filter_upwards [Tendsto.eventually_ne h' hy] with i hi
  exact (Fl.val_div hi).symm

theorem sqrt (hl : Fine S l) (h : Lim S l a x) : Lim S l (fun i => Scalar.sqrt (a i)) (Real.sqrt x) :=
  hl.rnd (Tendsto.sqrt h)

theorem sci (hl : Fine S l) (m : Nat) (s : Bool) (e : Nat) :
    Lim S l (fun _ => (OfScientific.ofScientific m s e : Fl _)) (OfScientific.ofScientific m s e : ℝ) :=
  hl.rnd tendsto_const_nhds

theorem sum (hl : Fine S l) {N : Nat} {a : Nat → (i : ι) → Fl (S.fp i)} {x : Nat → ℝ}
    (h : ∀ j, j < N → Lim S l (a j) (x j)) :
    Lim S l (fun i => accum N (fun j s => s + a j i) 0) (∑ j ∈ range N, x j) := by
  induction N with
  | zero => exact zero
  | succ N ih =>
    rw [sum_range_succ]
    exact add hl (ih fun j hj => h j (by omega)) (h N (by omega))

theorem dotA (hl : Fine S l) {n : ι → Nat} {N : Nat} (hn : ∀ i, n i = N)
    {a b : (i : ι) → Nat → Fl (S.fp i)} {x y : Nat → ℝ}
    (ha : ∀ j, j < N → Lim S l (fun i => a i j) (x j))
    (hb : ∀ j, j < N → Lim S l (fun i => b i j) (y j)) :
    Lim S l (fun i => Verif.dotA (n i) (a i) (b i)) (dot N x y) := by
  have e : (fun i => Verif.dotA (n i) (a i) (b i)) = fun i => Verif.dotA N (a i) (b i) := by
    funext i; rw [hn]
  rw [e]
  exact sum hl (a := fun j i => a i j * b i j) fun j hj => mul hl (ha j hj) (hb j hj)

theorem le_of_ge (h : Lim S l a x) (h' : Lim S l b y) [l.NeBot]
    (hf : ∀ᶠ i in l, Scalar.lt (a i) (b i) = false) : y ≤ x := by
  refine le_of_tendsto_of_tendsto h' h ?_
  filter_upwards [hf] with i hi
  by_contra hc
  rw [(Fl.lt_iff' (a i) (b i)).mpr (not_le.mp hc)] at hi
  cases hi

theorem ge_of_lt (h : Lim S l a x) (h' : Lim S l b y) [l.NeBot]
    (hf : ∀ᶠ i in l, Scalar.lt (a i) (b i) = true) : x ≤ y := by
  refine le_of_tendsto_of_tendsto h h' ?_
  filter_upwards [hf] with i hi
  exact ((Fl.lt_iff' (a i) (b i)).mp hi).le

end Lim

/-! ## Products with the matrix -/

variable {A : (i : ι) → Ell (Fl (S.fp i))} {B : Ell ℝ}

theorem NearM.val (hl : Fine S l) (h : NearM S A B) {q : Nat} (hq : q < B.nnz * B.nrow) :
    Lim S l (fun i => (A i).vals.val q) (B.vals.val q) := (h.vals.near q hq).lim0 hl

theorem NearM.rowAcc (hl : Fine S l) (hB : B.WF) (h : NearM S A B) {u : (i : ι) → Nat → Fl (S.fp i)}
    {x : Nat → ℝ} (hu : ∀ j, j < B.nrow → Lim S l (fun i => u i j) (x j)) {r : Nat} (hr : r < B.nrow) :
    Lim S l (fun i => Verif.rowAcc (A i) (u i) r) (op B x r) := by
  have e : (fun i => Verif.rowAcc (A i) (u i) r) = fun i => accum B.nnz (fun j s => s +
      (A i).vals.val (r * B.nnz + j) * u i (B.cols.val (r * B.nnz + j)).toNat) 0 := by
    funext i
    unfold Verif.rowAcc
    rw [h.nnz i]
    refine accum_congr (fun j s hj => ?_) _
    rw [h.cols i _ (row_lt hr hj)]
  rw [e]
  have hc : ∀ j, j < B.nnz → (B.cols.val (r * B.nnz + j)).toNat < B.nrow := fun j hj => by
    have := hB.cols_range _ (row_lt hr hj)
    omega
  exact Lim.sum hl (a := fun j i => (A i).vals.val (r * B.nnz + j) *
    u i (B.cols.val (r * B.nnz + j)).toNat)
    (x := fun j => B.vals.val (r * B.nnz + j) * x (B.cols.val (r * B.nnz + j)).toNat)
    fun j hj => Lim.mul hl (h.val hl (row_lt hr hj)) (hu _ (hc j hj))

theorem NearM.errOf (hl : Fine S l) (h : NearM S A B) {s : (i : ι) → CgState (Fl (S.fp i))} {r : Nat → ℝ}
    (hr : ∀ j, j < B.nrow → Lim S l (fun i => (s i).r.val j) (r j)) :
    Lim S l (fun i => Verif.errOf (A i) (s i)) (norm2 B.nrow r) :=
  Lim.sqrt hl (Lim.dotA hl h.nrow hr hr)

/-! ## Conjugate gradients -/

/-- Exact conjugate gradients from any start, for any number of steps. -/
theorem exists_pcg (n : Nat) (A : (Nat → ℝ) → Nat → ℝ) (k b x0 : Nat → ℝ) :
    ∃ x r p : Nat → Nat → ℝ, x 0 = x0 ∧ ∀ N, Pcg n A k b N x r p := by
  let st : Nat → (Nat → ℝ) × (Nat → ℝ) × (Nat → ℝ) := fun j => Nat.rec
    (x0, fun i => A x0 i - b i, fun i => k i * (A x0 i - b i)) (fun _ s =>
      let d := rho n k s.2.1 / dot n s.2.2 (A s.2.2)
      let r' := fun i => s.2.1 i - d * A s.2.2 i
      (fun i => s.1 i - d * s.2.2 i, r',
        fun i => k i * r' i + rho n k r' / rho n k s.2.1 * s.2.2 i)) j
  exact ⟨fun j => (st j).1, fun j => (st j).2.1, fun j => (st j).2.2, rfl, fun N =>
    ⟨fun i _ => rfl, fun _ i _ => rfl, fun j _ i _ => rfl, fun j _ i _ => rfl, fun j _ i _ => rfl⟩⟩

theorem norm2_pos_ne {n : Nat} {r : Nat → ℝ} (h : 0 < norm2 n r) : ∃ i, i < n ∧ r i ≠ 0 := by
  by_contra hc
  push Not at hc
  have : dot n r r = 0 := sum_eq_zero fun i hi => by rw [hc i (mem_range.mp hi), mul_zero]
  unfold norm2 at h
  rw [this, Real.sqrt_zero] at h
  exact lt_irrefl _ h

/-- The states of the rounded runs tend to those of exact conjugate gradients. -/
structure CgLim (S : Fam ι) (l : Filter ι) (n : Nat) (k : Nat → ℝ) (x r p : Nat → Nat → ℝ)
    (St : (i : ι) → Nat → CgState (Fl (S.fp i))) (j : Nat) : Prop where
  lx : ∀ q, q < n → Lim S l (fun i => (St i j).x.val q) (x j q)
  lr : ∀ q, q < n → Lim S l (fun i => (St i j).r.val q) (r j q)
  lp : ∀ j', j = j' + 1 → ∀ q, q < n → Lim S l (fun i => (St i j).p.val q) (p j' q)
  lrho : ∀ j', j = j' + 1 → Lim S l (fun i => (St i j).rho0) (rho n k (r j'))

theorem lim_cg [l.NeBot] (hl : Fine S l) (hB : B.WF) (hM : NearM S A B)
    {k : (i : ι) → Nat → Fl (S.fp i)} {kx : Nat → ℝ}
    (hk : ∀ q, q < B.nrow → Lim S l (fun i => k i q) (kx q)) {maxIts : Int}
    {tol : (i : ι) → Fl (S.fp i)} {τ : ℝ} (hτ : 0 < τ) (htol : Lim S l tol τ)
    {s sF : (i : ι) → CgState (Fl (S.fp i))} {n : Nat} {St : (i : ι) → Nat → CgState (Fl (S.fp i))}
    (hits : ∀ i, (s i).its = 0)
    (hT : ∀ᶠ i in l, CgTrace (A i) (k i) maxIts (tol i) (s i) n (St i) (sF i))
    {I : Finset Nat} {b : Nat → ℝ} {x r p : Nat → Nat → ℝ} (hP : ∀ N, Pcg B.nrow (op B) kx b N x r p)
    (hspd : SpdOn B.nrow I (op B)) (hkp : ∀ i ∈ I, 0 < kx i) (hx0 : OnI B.nrow I (x 0))
    (hb : OnI B.nrow I b) (hsx : ∀ q, q < B.nrow → Lim S l (fun i => (s i).x.val q) (x 0 q))
    (hsr : ∀ q, q < B.nrow → Lim S l (fun i => (s i).r.val q) (r 0 q)) :
    (∀ j, j ≤ n → CgLim S l B.nrow kx x r p St j) ∧ (∀ j, j < n → τ ≤ norm2 B.nrow (r j)) := by
  have hnot : ∀ j, j < n → CgLim S l B.nrow kx x r p St j → τ ≤ norm2 B.nrow (r j) := by
    intro j hj h
    refine Lim.le_of_ge (hM.errOf hl h.lr) htol ?_
    filter_upwards [hT] with i hi using hi.notYet j hj
  have main : ∀ j, j ≤ n → ∀ j', j' ≤ j → CgLim S l B.nrow kx x r p St j' := by
    intro j
    induction j with
    | zero =>
      intro _ j' hj'
      obtain rfl : j' = 0 := by omega
      have e : ∀ᶠ i in l, s i = St i 0 := by filter_upwards [hT] with i hi using hi.start.symm
      exact ⟨fun q hq => (hsx q hq).congr (by filter_upwards [e] with i hi; rw [hi]),
        fun q hq => (hsr q hq).congr (by filter_upwards [e] with i hi; rw [hi]),
        fun _ h => by omega, fun _ h => by omega⟩
    | succ j ih =>
      intro hj j' hj'
      have ih := ih (by omega)
      rcases Nat.lt_or_ge j' (j + 1) with h | h
      · exact ih j' (by omega)
      obtain rfl : j' = j + 1 := by omega
      have h := ih j (le_refl j)
      have hne : ∀ i, i < j + 1 → ∃ q, q < B.nrow ∧ r i q ≠ 0 := fun i hi =>
        norm2_pos_ne (lt_of_lt_of_le hτ (hnot i (by omega) (ih i (by omega))))
      have hpos : ∀ i, i ≤ j → 0 < rho B.nrow kx (r i) ∧ 0 < dot B.nrow (p i) (op B (p i)) := fun i hi =>
        ((hP (j + 1)).inv hspd hkp hx0 hb hne i (by omega)).2
      have hstep : ∀ᶠ i in l, CgStep (A i) (k i) (St i j) (St i (j + 1)) (Verif.errOf (A i) (St i j)) := by
        filter_upwards [hT] with i hi using hi.step j (by omega)
      have hI : ∀ᶠ i in l, (St i j).its = j := by
        filter_upwards [hT] with i hi
        rw [hi.its j (by omega), hits i, Nat.zero_add]
      have hz : ∀ q, q < B.nrow → Lim S l (fun i => (St i (j + 1)).z.val q) (kx q * r j q) := fun q hq =>
        (Lim.mul hl (hk q hq) (h.lr q hq)).congr (by
          filter_upwards [hstep] with i hi using (hi.z q (by rw [hM.nrow]; exact hq)).symm)
      have hrho : Lim S l (fun i => (St i (j + 1)).rho0) (rho B.nrow kx (r j)) :=
        (Lim.dotA hl hM.nrow h.lr hz).congr (by filter_upwards [hstep] with i hi using hi.rho.symm)
      have hp : ∀ q, q < B.nrow → Lim S l (fun i => (St i (j + 1)).p.val q) (p j q) := by
        intro q hq
        cases j with
        | zero =>
          rw [(hP 1).p0 (by omega) q hq]
          refine (hz q hq).congr ?_
          filter_upwards [hstep, hI] with i hi h0
          rw [hi.p q (by rw [hM.nrow]; exact hq), if_pos h0]
        | succ j =>
          rw [(hP (j + 2)).pS j (by omega) q hq]
          refine (Lim.add hl (hz q hq) (Lim.mul hl (Lim.div hl hrho (h.lrho j rfl) (hpos j (by omega)).1.ne')
            (h.lp j rfl q hq))).congr ?_
          filter_upwards [hstep, hI] with i hi h0
          rw [hi.p q (by rw [hM.nrow]; exact hq), if_neg (by omega)]
      have hq' : ∀ q, q < B.nrow → Lim S l (fun i => (St i (j + 1)).q.val q) (op B (p j) q) := fun q hq =>
        (hM.rowAcc hl hB hp hq).congr (by
          filter_upwards [hstep] with i hi using (hi.q q (by rw [hM.nrow]; exact hq)).symm)
      have hd := Lim.div hl hrho (Lim.dotA hl hM.nrow hp hq') (hpos j (le_refl j)).2.ne'
      refine ⟨fun q hq => ?_, fun q hq => ?_, fun j' e q hq => ?_, fun j' e => ?_⟩
      · rw [(hP (j + 1)).xS j (by omega) q hq]
        refine (Lim.sub hl (h.lx q hq) (Lim.mul hl hd (hp q hq))).congr ?_
        filter_upwards [hstep] with i hi using (hi.x q (by rw [hM.nrow]; exact hq)).symm
      · rw [(hP (j + 1)).rS j (by omega) q hq]
        refine (Lim.sub hl (h.lr q hq) (Lim.mul hl hd (hq' q hq))).congr ?_
        filter_upwards [hstep] with i hi using (hi.r q (by rw [hM.nrow]; exact hq)).symm
      · obtain rfl : j = j' := by omega
        exact hp q hq
      · obtain rfl : j = j' := by omega
        exact hrho
  exact ⟨fun j hj => main j hj j (le_refl j), fun j hj => hnot j hj (main j (by omega) j (le_refl j))⟩

/-! ## Ultrafilters -/

/-- Bounded numbers have a limit along an ultrafilter. -/
theorem exists_lim (𝒰 : Ultrafilter ι) (f : ι → ℝ) {B : ℝ} (h : ∀ i, |f i| ≤ B) :
    ∃ x, Tendsto f 𝒰 (𝓝 x) := by
  have hK : IsCompact (Set.Icc (-B) B) := isCompact_Icc
  obtain ⟨x, -, hx⟩ := hK.ultrafilter_le_nhds (𝒰.map f) (by
    rw [le_principal_iff]
    exact Ultrafilter.mem_map.mpr (Eventually.of_forall fun i => abs_le.mp (h i)))
  exact ⟨x, hx⟩

/-- Bounded natural numbers are constant along an ultrafilter. -/
theorem exists_const (𝒰 : Ultrafilter ι) (f : ι → Nat) {M : Nat} (h : ∀ i, f i ≤ M) :
    ∃ n, ∀ᶠ i in (𝒰 : Filter ι), f i = n := by
  have H : ∀ M, (∀ᶠ i in (𝒰 : Filter ι), f i ≤ M) → ∃ n, ∀ᶠ i in (𝒰 : Filter ι), f i = n := by
    intro M
    induction M with
    | zero => exact fun h => ⟨0, by filter_upwards [h] with i hi; omega⟩
    | succ M ih =>
      intro h
      have : ∀ᶠ i in (𝒰 : Filter ι), f i ≤ M ∨ f i = M + 1 := by filter_upwards [h] with i hi; omega
      rcases Ultrafilter.eventually_or.mp this with h1 | h1
      · exact ih h1
      · exact ⟨_, h1⟩
  exact H M (Eventually.of_forall h)

end Verif.Spec
