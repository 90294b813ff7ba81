import Verif.Model.SiteTable
import Verif.Spec.Site
import Verif.Lemmas.Int32
import Mathlib.Algebra.BigOperators.Group.List.Basic
import Mathlib.Algebra.Order.BigOperators.Group.List
import Mathlib.Tactic.Linarith
import Mathlib.Tactic.Ring
import Mathlib.Tactic.Positivity

/-!
# Interval analysis of the places in the code

The bounds are polynomials in `a = nx - 2`, `b = ny - 2`, `c = nz - 2` (`c = 0` in the plane).
-/

namespace Verif.SiteCheck
open CExpr

/-- A monomial: the exponents of `a`, `b`, `c`. -/
abbrev Mono := Nat × Nat × Nat

/-- A polynomial: coefficients and monomials, in any order. -/
abbrev Poly := List (Int × Mono)

/-- Values of `a`, `b`, `c`. -/
structure Pt where
  a : Int
  b : Int
  c : Int
  ha : 0 ≤ a
  hb : 0 ≤ b
  hc : 0 ≤ c

def mval (q : Pt) (m : Mono) : Int := q.a ^ m.1 * q.b ^ m.2.1 * q.c ^ m.2.2

theorem mval_nonneg (q : Pt) (m : Mono) : 0 ≤ mval q m :=
  mul_nonneg (mul_nonneg (pow_nonneg q.ha _) (pow_nonneg q.hb _)) (pow_nonneg q.hc _)

def pval (q : Pt) : Poly → Int
  | [] => 0
  | t :: p => t.1 * mval q t.2 + pval q p

def padd (p r : Poly) : Poly := p ++ r
def pneg (p : Poly) : Poly := p.map fun t => (-t.1, t.2)
def psub (p r : Poly) : Poly := padd p (pneg r)
def mmul (m n : Mono) : Mono := (m.1 + n.1, m.2.1 + n.2.1, m.2.2 + n.2.2)
def pscale (t : Int × Mono) (p : Poly) : Poly := p.map fun s => (t.1 * s.1, mmul t.2 s.2)

def pmul : Poly → Poly → Poly
  | [], _ => []
  | t :: p, r => padd (pscale t r) (pmul p r)

def pconst (n : Int) : Poly := [(n, 0, 0, 0)]

@[simp] theorem pval_append (q : Pt) (p r : Poly) : pval q (p ++ r) = pval q p + pval q r := by
  induction p with
  | nil => simp [pval]
  | cons t p ih => simp only [List.cons_append, pval, ih]; ring

@[simp] theorem pval_add (q : Pt) (p r : Poly) : pval q (padd p r) = pval q p + pval q r :=
  pval_append q p r

@[simp] theorem pval_neg (q : Pt) (p : Poly) : pval q (pneg p) = -pval q p := by
  induction p with
  | nil => simp [pneg, pval]
  | cons t p ih =>
    simp only [pneg, List.map_cons, pval] at ih ⊢
    rw [ih]; ring

@[simp] theorem pval_sub (q : Pt) (p r : Poly) : pval q (psub p r) = pval q p - pval q r := by
  simp [psub, sub_eq_add_neg]

theorem mval_mul (q : Pt) (m n : Mono) : mval q (mmul m n) = mval q m * mval q n := by
  simp only [mval, mmul, pow_add]; ring

@[simp] theorem pval_scale (q : Pt) (t : Int × Mono) (p : Poly) :
    pval q (pscale t p) = t.1 * mval q t.2 * pval q p := by
  induction p with
  | nil => simp [pscale, pval]
  | cons s p ih =>
    simp only [pscale, List.map_cons, pval] at ih ⊢
    rw [ih, mval_mul]; ring

@[simp] theorem pval_mul (q : Pt) (p r : Poly) : pval q (pmul p r) = pval q p * pval q r := by
  induction p with
  | nil => simp [pmul, pval]
  | cons t p ih => simp only [pmul, pval_add, pval_scale, ih, pval]; ring

@[simp] theorem pval_const (q : Pt) (n : Int) : pval q (pconst n) = n := by
  simp [pconst, pval, mval]

/-- The coefficient of a monomial. -/
def coeff (m : Mono) : Poly → Int
  | [] => 0
  | t :: p => if t.2 = m then t.1 + coeff m p else coeff m p

/-- No monomial has a negative coefficient. -/
def nonneg (p : Poly) : Bool := p.all fun t => decide (0 ≤ coeff t.2 p)

theorem pval_split (q : Pt) (m : Mono) (p : Poly) :
    pval q p = coeff m p * mval q m + pval q (p.filter fun t => decide (t.2 ≠ m)) := by
  induction p with
  | nil => simp [pval, coeff]
  | cons t p ih =>
    by_cases h : t.2 = m
    · have hf : ((t :: p).filter fun t => decide (t.2 ≠ m)) = p.filter fun t => decide (t.2 ≠ m) := by
        simp [List.filter_cons, h]
      rw [hf]
      simp only [pval, coeff, if_pos h]
      rw [ih, h]; ring
    · have hf : ((t :: p).filter fun t => decide (t.2 ≠ m)) =
          t :: p.filter fun t => decide (t.2 ≠ m) := by
        simp [List.filter_cons, h]
      rw [hf]
      simp only [pval, coeff, if_neg h]
      rw [ih]; ring

theorem coeff_filter {m n : Mono} (h : m ≠ n) (p : Poly) :
    coeff m (p.filter fun t => decide (t.2 ≠ n)) = coeff m p := by
  induction p with
  | nil => rfl
  | cons t p ih =>
    by_cases hn : t.2 = n
    · have hm : t.2 ≠ m := fun e => h (e.symm.trans hn)
      simp [List.filter_cons, hn, coeff, ← ih, h.symm]
    · by_cases hm : t.2 = m
      · simp [List.filter_cons, coeff, hm, h] at ih ⊢
        exact ih
      · simp [List.filter_cons, coeff, hn, hm] at ih ⊢
        exact ih

theorem pval_nonneg (q : Pt) : ∀ (k : Nat) (p : Poly), p.length ≤ k → nonneg p = true → 0 ≤ pval q p
  | _, [], _, _ => le_refl _
  | 0, _ :: _, h, _ => by simp at h
  | k + 1, t :: p, h, hp => by
    have hall : ∀ s ∈ t :: p, 0 ≤ coeff s.2 (t :: p) := by
      intro s hs
      exact of_decide_eq_true (List.all_eq_true.1 hp s hs)
    rw [pval_split q t.2]
    refine add_nonneg (mul_nonneg (hall t List.mem_cons_self) (mval_nonneg q _)) ?_
    have hl : ((t :: p).filter fun s => decide (s.2 ≠ t.2)).length ≤ k := by
      have : ((t :: p).filter fun s => decide (s.2 ≠ t.2)) = p.filter fun s => decide (s.2 ≠ t.2) := by
        simp [List.filter_cons]
      rw [this]
      exact (List.length_filter_le _ _).trans (by simpa using h)
    refine pval_nonneg q k _ hl ?_
    refine List.all_eq_true.2 fun s hs => ?_
    obtain ⟨h1, h2⟩ := List.mem_filter.1 hs
    have hne : s.2 ≠ t.2 := of_decide_eq_true h2
    rw [coeff_filter hne]
    exact decide_eq_true (hall s h1)

theorem nonneg_sound (q : Pt) {p : Poly} (h : nonneg p = true) : 0 ≤ pval q p :=
  pval_nonneg q p.length p (le_refl _) h

/-- `p ≤ r` at every point. -/
def ple (p r : Poly) : Bool := nonneg (psub r p)

theorem ple_sound (q : Pt) {p r : Poly} (h : ple p r = true) : pval q p ≤ pval q r := by
  have := nonneg_sound q h
  rw [pval_sub] at this
  linarith

/-- Known bounds of variables. -/
abbrev Env := List (SV × Poly × Poly)

def Env.find (v : SV) : Env → Option (Poly × Poly)
  | [] => none
  | (w, b) :: r => if w = v then some b else Env.find v r

/-- The bounds are right. -/
def Env.Ok (q : Pt) (σ : SV → Int) (E : Env) : Prop :=
  ∀ t ∈ E, pval q t.2.1 ≤ σ t.1 ∧ σ t.1 ≤ pval q t.2.2

theorem Env.Ok.find {q : Pt} {σ : SV → Int} {v : SV} {b : Poly × Poly} :
    ∀ {E : Env}, E.Ok q σ → E.find v = some b → pval q b.1 ≤ σ v ∧ σ v ≤ pval q b.2
  | [], _, h => by simp [Env.find] at h
  | (w, b') :: r, hE, h => by
    unfold Env.find at h
    split at h
    · rename_i hw
      obtain rfl := Option.some.inj h
      rw [← hw]
      exact hE (w, b') List.mem_cons_self
    · exact Env.Ok.find (E := r) (fun t ht => hE t (List.mem_cons_of_mem _ ht)) h

/-- Bounds of an expression. -/
def itv (E : Env) : SExp → Option (Poly × Poly)
  | .lit n => some (pconst n, pconst n)
  | .var v => E.find v
  | .add x y =>
    match itv E x, itv E y with
    | some s, some t => some (padd s.1 t.1, padd s.2 t.2)
    | _, _ => none
  | .sub x y =>
    match itv E x, itv E y with
    | some s, some t => some (psub s.1 t.2, psub s.2 t.1)
    | _, _ => none
  | .mul x y =>
    match itv E x, itv E y with
    | some s, some t =>
      if nonneg s.1 && nonneg t.1 then some (pmul s.1 t.1, pmul s.2 t.2) else none
    | _, _ => none

theorem itv_sound {q : Pt} {σ : SV → Int} {E : Env} (hE : E.Ok q σ) :
    ∀ {e : SExp} {b : Poly × Poly}, itv E e = some b →
      pval q b.1 ≤ e.eval σ ∧ e.eval σ ≤ pval q b.2
  | .lit n, b, h => by
    obtain rfl := Option.some.inj h
    simp [eval]
  | .var v, b, h => hE.find h
  | .add x y, b, h => by
    unfold itv at h
    split at h
    · rename_i s t hx hy
      obtain rfl := Option.some.inj h
      have h1 := itv_sound hE hx
      have h2 := itv_sound hE hy
      simp only [pval_add, eval]
      omega
    · exact absurd h (by simp)
  | .sub x y, b, h => by
    unfold itv at h
    split at h
    · rename_i s t hx hy
      obtain rfl := Option.some.inj h
      have h1 := itv_sound hE hx
      have h2 := itv_sound hE hy
      simp only [pval_sub, eval]
      omega
    · exact absurd h (by simp)
  | .mul x y, b, h => by
    unfold itv at h
    split at h
    · rename_i s t hx hy
      split at h
      · rename_i hn
        obtain rfl := Option.some.inj h
        rw [Bool.and_eq_true] at hn
        have h1 := itv_sound hE hx
        have h2 := itv_sound hE hy
        have n1 := nonneg_sound q hn.1
        have n2 := nonneg_sound q hn.2
        simp only [pval_mul, eval]
        exact ⟨mul_le_mul h1.1 h2.1 n2 (n1.trans h1.1),
          mul_le_mul h1.2 h2.2 (n2.trans h2.1) (n1.trans (h1.1.trans h1.2))⟩
      · exact absurd h (by simp)
    · exact absurd h (by simp)

/-- Add what the surroundings say. -/
def build : Env → List Fact → Env
  | E, [] => E
  | E, .loop v lo hi :: r =>
    match itv E lo, itv E hi with
    | some s, some t => build ((v, s.1, psub t.2 (pconst 1)) :: E) r
    | _, _ => build E r
  | E, .eq v e :: r =>
    match itv E e with
    | some s => build ((v, s) :: E) r
    | none => build E r
  | E, .ne _ _ :: r => build E r

theorem build_ok {q : Pt} {σ : SV → Int} :
    ∀ {r : List Fact} {E : Env}, E.Ok q σ → (∀ f ∈ r, f.Holds σ) → (build E r).Ok q σ
  | [], E, hE, _ => hE
  | .loop v lo hi :: r, E, hE, h => by
    have h0 : Fact.Holds σ (.loop v lo hi) := h _ List.mem_cons_self
    have hr : ∀ f ∈ r, f.Holds σ := fun f hf => h f (List.mem_cons_of_mem _ hf)
    unfold build
    split
    · rename_i s t hs ht
      refine build_ok ?_ hr
      intro u hu
      rcases List.mem_cons.1 hu with rfl | hu
      · have h1 := itv_sound hE hs
        have h2 := itv_sound hE ht
        simp only [Fact.Holds] at h0
        simp only [pval_sub, pval_const]
        omega
      · exact hE u hu
    · exact build_ok hE hr
  | .eq v e :: r, E, hE, h => by
    have h0 : Fact.Holds σ (.eq v e) := h _ List.mem_cons_self
    have hr : ∀ f ∈ r, f.Holds σ := fun f hf => h f (List.mem_cons_of_mem _ hf)
    unfold build
    split
    · rename_i s hs
      refine build_ok ?_ hr
      intro u hu
      rcases List.mem_cons.1 hu with rfl | hu
      · have h1 := itv_sound hE hs
        simp only [Fact.Holds] at h0
        simp only
        omega
      · exact hE u hu
    · exact build_ok hE hr
  | .ne v e :: r, E, hE, h => by
    unfold build
    exact build_ok hE fun f hf => h f (List.mem_cons_of_mem _ hf)

def pa : Poly := [(1, 1, 0, 0)]
def pb : Poly := [(1, 0, 1, 0)]
def pc : Poly := [(1, 0, 0, 1)]

/-- The number of elements. -/
def pElem (space : Bool) : Poly :=
  if space then pmul (pmul (padd pa (pconst 1)) (padd pb (pconst 1))) (padd pc (pconst 1))
  else pmul (padd pa (pconst 1)) (padd pb (pconst 1))

/-- The number of nodes. -/
def pNn (space : Bool) : Poly :=
  if space then pmul (pmul (padd pa (pconst 2)) (padd pb (pconst 2))) (padd pc (pconst 2))
  else pmul (padd pa (pconst 2)) (padd pb (pconst 2))

/-- Limits: values up to one of these are representable. -/
def limits (space : Bool) : List Poly :=
  if space then [pmul (pconst 243) (pNn true)]
  else [pmul (pconst 36) (pNn false), pmul (pconst 56) (pElem false)]

def two (p : Poly) : Poly × Poly := (p, p)

/-- The members of the object. -/
def base (space : Bool) : Env :=
  [(.dim, two (pconst (if space then 3 else 2))),
   (.nx, two (padd pa (pconst 2))),
   (.ny, two (padd pb (pconst 2))),
   (.nz, two (if space then padd pc (pconst 2) else pconst 1)),
   (.nn, two (pNn space)),
   (.npe, two (pconst (if space then 8 else 4))),
   (.nvoi, two (pconst (if space then 6 else 3))),
   (.nelem, two (pElem space)),
   (.num_int_vars, two (pmul (pElem space) (pconst 56))),
   (.numMaterials, two (pconst 2)),
   (.nParams, two (pconst 5))]

/-- The surroundings contradict the dimension. -/
def dead (space : Bool) (r : List Fact) : Bool :=
  r.any fun
    | .eq .dim (.lit k) => decide (k ≠ if space then 3 else 2)
    | .ne .dim (.lit k) => decide (k = if space then 3 else 2)
    | _ => false

def sub? (lim : List Poly) (E : Env) (e : SExp) : Bool :=
  match itv E e with
  | some s => nonneg s.1 && lim.any fun l => ple s.2 l
  | none => false

def fit? (lim : List Poly) (E : Env) : SExp → Bool
  | .lit n => sub? lim E (.lit n)
  | .var v => sub? lim E (.var v)
  | .add x y => fit? lim E x && fit? lim E y && sub? lim E (.add x y)
  | .sub x y => fit? lim E x && fit? lim E y && sub? lim E (.sub x y)
  | .mul x y => fit? lim E x && fit? lim E y && sub? lim E (.mul x y)

def below? (E : Env) (x y : SExp) (k : Int) : Bool :=
  match itv E x, itv E y with
  | some s, some t => ple (padd s.2 (pconst k)) t.1
  | _, _ => false

def use? (lim : List Poly) (E : Env) : Use → Bool
  | .fits e => fit? lim E e
  | .index _ e size => below? E (.lit 0) e 0 && below? E e size 1
  | .extent _ need given => below? E need given 0
  | .range e lo hi => below? E lo e 0 && below? E e hi 1

/-- The check of a place. -/
def check (space : Bool) (s : Site) : Bool :=
  dead space s.ctx || use? (limits space) (build (base space) s.ctx) s.use

theorem below_sound {q : Pt} {σ : SV → Int} {E : Env} (hE : E.Ok q σ) {x y : SExp} {k : Int}
    (h : below? E x y k = true) : x.eval σ + k ≤ y.eval σ := by
  unfold below? at h
  split at h
  · rename_i s t hs ht
    have h1 := itv_sound hE hs
    have h2 := itv_sound hE ht
    have h3 := ple_sound q h
    rw [pval_add, pval_const] at h3
    omega
  · exact absurd h (by simp)

theorem sub_sound {q : Pt} {σ : SV → Int} {E : Env} (hE : E.Ok q σ) {lim : List Poly}
    (hl : ∀ l ∈ lim, pval q l < 2 ^ 31) {e : SExp} (h : sub? lim E e = true) : InInt (e.eval σ) := by
  unfold sub? at h
  split at h
  · rename_i s hs
    rw [Bool.and_eq_true] at h
    have h1 := itv_sound hE hs
    have h2 := nonneg_sound q h.1
    obtain ⟨l, hl', h3⟩ := List.any_eq_true.1 h.2
    have h4 := ple_sound q h3
    have h5 := hl l hl'
    exact ⟨by omega, by omega⟩
  · exact absurd h (by simp)

theorem fit_sound {q : Pt} {σ : SV → Int} {E : Env} (hE : E.Ok q σ) {lim : List Poly}
    (hl : ∀ l ∈ lim, pval q l < 2 ^ 31) : ∀ {e : SExp}, fit? lim E e = true → Fit σ e
  | .lit n, h => sub_sound hE hl h
  | .var v, h => sub_sound hE hl h
  | .add x y, h => by
    simp only [fit?, Bool.and_eq_true] at h
    exact ⟨fit_sound hE hl h.1.1, fit_sound hE hl h.1.2, sub_sound hE hl h.2⟩
  | .sub x y, h => by
    simp only [fit?, Bool.and_eq_true] at h
    exact ⟨fit_sound hE hl h.1.1, fit_sound hE hl h.1.2, sub_sound hE hl h.2⟩
  | .mul x y, h => by
    simp only [fit?, Bool.and_eq_true] at h
    exact ⟨fit_sound hE hl h.1.1, fit_sound hE hl h.1.2, sub_sound hE hl h.2⟩

theorem use_sound {q : Pt} {σ : SV → Int} {E : Env} (hE : E.Ok q σ) {lim : List Poly}
    {u : Use} (hl : ∀ e, u = .fits e → ∀ l ∈ lim, pval q l < 2 ^ 31)
    (h : use? lim E u = true) : u.Safe σ := by
  cases u with
  | fits e => exact (fit_sound hE (hl e rfl) h).run
  | index a e size =>
    simp only [use?, Bool.and_eq_true] at h
    have h1 := below_sound hE h.1
    have h2 := below_sound hE h.2
    simp only [eval] at h1
    exact ⟨by omega, by omega⟩
  | extent a need given =>
    have h1 := below_sound hE h
    simp only [Use.Safe]
    omega
  | range e lo hi =>
    simp only [use?, Bool.and_eq_true] at h
    have h1 := below_sound hE h.1
    have h2 := below_sound hE h.2
    exact ⟨by omega, by omega⟩

theorem dead_sound {space : Bool} {σ : SV → Int} (hd : σ .dim = if space then 3 else 2)
    {r : List Fact} (h : dead space r = true) : ¬ ∀ f ∈ r, f.Holds σ := by
  intro hr
  obtain ⟨f, hf, h⟩ := List.any_eq_true.1 h
  have := hr f hf
  split at h
  · simp only [Fact.Holds, eval] at this
    have := of_decide_eq_true h
    omega
  · simp only [Fact.Holds, eval] at this
    have := of_decide_eq_true h
    omega
  · exact absurd h (by simp)

theorem base_plane {σ : SV → Int} (C : Cls σ) (hd : σ .dim = 2) :
    ∃ q : Pt, (base false).Ok q σ ∧ pval q (pmul (pconst 36) (pNn false)) = 36 * σ .nx * σ .ny ∧
      pval q (pmul (pconst 56) (pElem false)) = 56 * ((σ .nx - 1) * (σ .ny - 1)) := by
  have hx := C.nx
  have hy := C.ny
  obtain ⟨-, hz, hp, hv, he⟩ : σ .dim = 2 ∧ σ .nz = 1 ∧ σ .npe = 4 ∧ σ .nvoi = 3 ∧
      σ .nelem = (σ .nx - 1) * (σ .ny - 1) := by
    rcases C.dim with h | h
    · exact h
    · omega
  refine ⟨⟨σ .nx - 2, σ .ny - 2, 0, by omega, by omega, le_refl _⟩, ?_, ?_, ?_⟩
  · intro t ht
    simp only [base, List.mem_cons, List.not_mem_nil, or_false] at ht
    rcases ht with rfl | rfl | rfl | rfl | rfl | rfl | rfl | rfl | rfl | rfl | rfl <;>
      simp [two, pa, pb, pNn, pElem, pval, mval, hd, hz, hp, hv, he, C.nn, C.vars, C.mats, C.params] <;>
      constructor <;> nlinarith
  · simp [pNn, pa, pb, pval, mval]; ring
  · simp [pElem, pa, pb, pval, mval]; ring

theorem base_space {σ : SV → Int} (C : Cls σ) (hd : σ .dim = 3) :
    ∃ q : Pt, (base true).Ok q σ ∧
      pval q (pmul (pconst 243) (pNn true)) = 243 * σ .nx * σ .ny * σ .nz := by
  have hx := C.nx
  have hy := C.ny
  obtain ⟨-, hz, hp, hv, he⟩ : σ .dim = 3 ∧ 2 ≤ σ .nz ∧ σ .npe = 8 ∧ σ .nvoi = 6 ∧
      σ .nelem = (σ .nx - 1) * (σ .ny - 1) * (σ .nz - 1) := by
    rcases C.dim with h | h
    · omega
    · exact h
  refine ⟨⟨σ .nx - 2, σ .ny - 2, σ .nz - 2, by omega, by omega, by omega⟩, ?_, ?_⟩
  · intro t ht
    have e1 : ∀ x y : Int, x = y → x ≤ y ∧ y ≤ x := fun x y h => ⟨h.le, h.ge⟩
    simp only [base, List.mem_cons, List.not_mem_nil, or_false] at ht
    rcases ht with rfl | rfl | rfl | rfl | rfl | rfl | rfl | rfl | rfl | rfl | rfl <;>
      refine e1 _ _ ?_ <;>
      simp [two, pa, pb, pc, pNn, pElem, pval, mval, hd, hp, hv, he, C.nn, C.vars, C.mats, C.params] <;>
      ring
  · simp [pNn, pa, pb, pc, pval, mval]; ring

/-- A place that passes both checks is safe. -/
theorem check_sound {σ : SV → Int} (C : Cls σ) {s : Site}
    (hl : ∀ e, s.use = .fits e → (σ .dim = 2 → 36 * σ .nx * σ .ny < 2 ^ 31 ∧
      56 * ((σ .nx - 1) * (σ .ny - 1)) < 2 ^ 31) ∧
      (σ .dim = 3 → 243 * σ .nx * σ .ny * σ .nz < 2 ^ 31))
    (h : (check false s && check true s) = true) (hc : ∀ f ∈ s.ctx, f.Holds σ) : s.use.Safe σ := by
  rw [Bool.and_eq_true] at h
  have hd : σ .dim = 2 ∨ σ .dim = 3 := by
    rcases C.dim with h | h
    · exact .inl h.1
    · exact .inr h.1
  rcases hd with hd | hd
  · obtain ⟨q, hq, l1, l2⟩ := base_plane C hd
    have h1 := h.1
    unfold check at h1
    rw [Bool.or_eq_true] at h1
    rcases h1 with h1 | h1
    · exact absurd hc (dead_sound (by simpa using hd) h1)
    · refine use_sound (build_ok hq hc) (fun e he l hl' => ?_) h1
      have := (hl e he).1 hd
      simp only [limits, Bool.false_eq_true, if_false, List.mem_cons, List.not_mem_nil,
        or_false] at hl'
      rcases hl' with rfl | rfl
      · rw [l1]; exact this.1
      · rw [l2]; exact this.2
  · obtain ⟨q, hq, l1⟩ := base_space C hd
    have h1 := h.2
    unfold check at h1
    rw [Bool.or_eq_true] at h1
    rcases h1 with h1 | h1
    · exact absurd hc (dead_sound (by simpa using hd) h1)
    · refine use_sound (build_ok hq hc) (fun e he l hl' => ?_) h1
      have := (hl e he).2 hd
      simp only [limits, if_true, List.mem_cons, List.not_mem_nil, or_false] at hl'
      obtain rfl := hl'
      rw [l1]; exact this

/-- A cell with four nodes per side; the other variables are zero. -/
def cell4 (space : Bool) : SV → Int
  | .dim => if space then 3 else 2
  | .nx => 4 | .ny => 4 | .nz => if space then 4 else 1 | .nn => if space then 64 else 16
  | .npe => if space then 8 else 4 | .nvoi => if space then 6 else 3
  | .nelem => if space then 27 else 9 | .num_int_vars => if space then 1512 else 504
  | .numMaterials => 2 | .nParams => 5
  | _ => 0

/-- Give the variables the first value the surroundings allow; those of the object stay. -/
def first : (SV → Int) → List Fact → SV → Int
  | σ, [] => σ
  | σ, .loop v lo _ :: r => first (fun w => if w = v then lo.eval σ else σ w) r
  | σ, .eq v e :: r => first (fun w => if w = v then e.eval σ else σ w) r
  | σ, .ne _ _ :: r => first σ r

/-- The values `Cls` asks for, decidably. -/
def cls? (σ : SV → Int) : Bool :=
  (decide (σ .dim = 2 ∧ σ .nz = 1 ∧ σ .npe = 4 ∧ σ .nvoi = 3 ∧
      σ .nelem = (σ .nx - 1) * (σ .ny - 1)) ||
    decide (σ .dim = 3 ∧ 2 ≤ σ .nz ∧ σ .npe = 8 ∧ σ .nvoi = 6 ∧
      σ .nelem = (σ .nx - 1) * (σ .ny - 1) * (σ .nz - 1))) &&
  decide (2 ≤ σ .nx ∧ 2 ≤ σ .ny ∧ σ .nn = σ .nx * σ .ny * σ .nz ∧
    σ .num_int_vars = σ .nelem * 8 * 7 ∧ σ .numMaterials = 2 ∧ σ .nParams = 5)

theorem cls_of {σ : SV → Int} (h : cls? σ = true) : Cls σ := by
  simp only [cls?, Bool.and_eq_true, Bool.or_eq_true, decide_eq_true_eq] at h
  obtain ⟨h1, h2, h3, h4, h5, h6, h7⟩ := h
  exact ⟨h1, h2, h3, h4, h5, h6, h7⟩

instance (σ : SV → Int) : (f : Fact) → Decidable (f.Holds σ)
  | .loop v lo hi => inferInstanceAs (Decidable (lo.eval σ ≤ σ v ∧ σ v < hi.eval σ))
  | .eq v e => inferInstanceAs (Decidable (σ v = e.eval σ))
  | .ne v e => inferInstanceAs (Decidable (σ v ≠ e.eval σ))

def reach? (σ : SV → Int) (s : Site) : Bool := cls? σ && decide (∀ f ∈ s.ctx, f.Holds σ)

theorem reachable : ∀ s ∈ intSites ++ useSites,
    (reach? (first (cell4 false) s.ctx) s || reach? (first (cell4 true) s.ctx) s) = true := by
  decide +kernel

theorem ints_checked : ∀ s ∈ intSites, (check false s && check true s) = true := by decide +kernel

theorem uses_checked : ∀ s ∈ useSites, (check false s && check true s) = true := by decide +kernel

theorem uses_not_fits : ∀ s ∈ useSites, ¬ ∃ e, s.use = .fits e := by
  intro s hs ⟨e, he⟩
  have h : (useSites.all fun s => match s.use with
    | .fits _ => false
    | _ => true) = true := by decide +kernel
  have := List.all_eq_true.1 h s hs
  rw [he] at this
  exact absurd this (by simp)

end Verif.SiteCheck
