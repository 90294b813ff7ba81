import Verif.Model.Int32Table
import Verif.Spec.Int32
import Mathlib.Tactic.Linarith
import Mathlib.Tactic.Ring

/-!
# Lemmas for the 32-bit arithmetic of the matrix routines
-/

namespace Verif
open CExpr

/-- Every subexpression is representable. -/
def Fit {ν : Type} (σ : ν → Int) : CExpr ν → Prop
  | lit n => InInt n
  | var v => InInt (σ v)
  | add a b => Fit σ a ∧ Fit σ b ∧ InInt (a.eval σ + b.eval σ)
  | sub a b => Fit σ a ∧ Fit σ b ∧ InInt (a.eval σ - b.eval σ)
  | mul a b => Fit σ a ∧ Fit σ b ∧ InInt (a.eval σ * b.eval σ)

theorem Fit.run {ν : Type} {σ : ν → Int} {e : CExpr ν} (h : Fit σ e) : e.run32 σ = some (e.eval σ) := by
  induction e with
  | lit n => exact if_pos h
  | var v => exact if_pos h
  | add a b iha ihb =>
    rw [run32, iha h.1, ihb h.2.1]
    exact if_pos h.2.2
  | sub a b iha ihb =>
    rw [run32, iha h.1, ihb h.2.1]
    exact if_pos h.2.2
  | mul a b iha ihb =>
    rw [run32, iha h.1, ihb h.2.1]
    exact if_pos h.2.2

/-- `e` is representable with all its subexpressions and its value is in `[0, m]`. -/
def Nn (σ : V → Int) (e : CExp) (m : Int) : Prop := Fit σ e ∧ 0 ≤ e.eval σ ∧ e.eval σ ≤ m

theorem run32_some {ν : Type} {σ : ν → Int} {e : CExpr ν} {v : Int} (h : e.run32 σ = some v) :
    v = e.eval σ ∧ InInt v := by
  have key : ∀ {z w : Int}, chk z = some w → w = z ∧ InInt w := by
    intro z w hz
    unfold chk at hz
    split at hz
    · rename_i hi
      obtain rfl := Option.some.inj hz
      exact ⟨rfl, hi⟩
    · exact absurd hz (by simp)
  induction e generalizing v with
  | lit n => exact key h
  | var w => exact key h
  | add a b iha ihb | sub a b iha ihb | mul a b iha ihb =>
    rw [run32] at h
    obtain ⟨x, hx, h⟩ := Option.bind_eq_some_iff.1 h
    obtain ⟨y, hy, h⟩ := Option.bind_eq_some_iff.1 h
    have := key h
    rw [(iha hx).1, (ihb hy).1] at this
    exact this

/-- A positive value below `2^31` needs no more than that of its subexpressions. -/
def PosFit {ν : Type} (σ : ν → Int) (e : CExpr ν) : Prop := 1 ≤ e.eval σ ∧ (e.eval σ < 2 ^ 31 → Fit σ e)

theorem PosFit.mul {ν : Type} {σ : ν → Int} {a b : CExpr ν} (ha : PosFit σ a) (hb : PosFit σ b) :
    PosFit σ (.mul a b) := by
  obtain ⟨a1, a2⟩ := ha
  obtain ⟨b1, b2⟩ := hb
  have e : (CExpr.mul a b).eval σ = a.eval σ * b.eval σ := rfl
  have h1 : a.eval σ ≤ a.eval σ * b.eval σ := by nlinarith
  have h2 : b.eval σ ≤ a.eval σ * b.eval σ := by nlinarith
  refine ⟨by rw [e]; omega, fun h => ⟨a2 (by omega), b2 (by omega), ⟨by omega, by rw [← e]; exact h⟩⟩⟩

theorem PosFit.var {ν : Type} {σ : ν → Int} {v : ν} (h : 1 ≤ σ v) : PosFit σ (.var v) :=
  ⟨h, fun hv => ⟨by simp only [eval] at hv; omega, hv⟩⟩

theorem PosFit.lit {ν : Type} {σ : ν → Int} {n : Int} (h : 1 ≤ n) : PosFit σ (.lit n) :=
  ⟨h, fun hv => ⟨by simp only [eval] at hv; omega, hv⟩⟩

theorem PosFit.none_iff {ν : Type} {σ : ν → Int} {e : CExpr ν} (h : PosFit σ e) :
    e.run32 σ = none ↔ 2 ^ 31 ≤ e.eval σ := by
  constructor
  · intro hn
    by_contra hc
    have := (h.2 (by omega)).run
    rw [hn] at this
    exact absurd this (by simp)
  · intro hc
    cases hr : e.run32 σ with
    | none => rfl
    | some v =>
      obtain ⟨rfl, h1, h2⟩ := run32_some hr
      omega

section
variable {σ : V → Int} {W : Int}

theorem inInt_of {z m : Int} (hm : m < 2 ^ 31) (h0 : 0 ≤ z) (h1 : z ≤ m) : InInt z :=
  ⟨by omega, by omega⟩

theorem Nn.lit {n : Int} (h0 : 0 ≤ n) (h1 : n < 2 ^ 31) : Nn σ (.lit n) n :=
  ⟨⟨by omega, h1⟩, h0, le_refl _⟩

theorem Nn.var {v : V} {m : Int} (h0 : 0 ≤ σ v) (h1 : σ v ≤ m) (hm : m < 2 ^ 31) :
    Nn σ (.var v) m := ⟨inInt_of hm h0 h1, h0, h1⟩

theorem Nn.add {a b : CExp} {m n : Int} (ha : Nn σ a m) (hb : Nn σ b n) (h : m + n < 2 ^ 31) :
    Nn σ (.add a b) (m + n) := by
  obtain ⟨a1, a2, a3⟩ := ha
  obtain ⟨b1, b2, b3⟩ := hb
  have e : (CExpr.add a b).eval σ = a.eval σ + b.eval σ := rfl
  exact ⟨⟨a1, b1, inInt_of h (by omega) (by omega)⟩, by rw [e]; omega, by rw [e]; omega⟩

theorem Nn.mul {a b : CExp} {m n : Int} (ha : Nn σ a m) (hb : Nn σ b n) (h : m * n < 2 ^ 31) :
    Nn σ (.mul a b) (m * n) := by
  obtain ⟨a1, a2, a3⟩ := ha
  obtain ⟨b1, b2, b3⟩ := hb
  have h1 : a.eval σ * b.eval σ ≤ m * n := mul_le_mul a3 b3 b2 (a2.trans a3)
  have h0 : 0 ≤ a.eval σ * b.eval σ := mul_nonneg a2 b2
  exact ⟨⟨a1, b1, inInt_of h h0 h1⟩, h0, h1⟩

theorem Nn.mono {a : CExp} {m n : Int} (ha : Nn σ a m) (h : m ≤ n) : Nn σ a n :=
  ⟨ha.1, ha.2.1, ha.2.2.trans h⟩

theorem Nn.mulVar {a : CExp} {m : Int} {v : V} (ha : Nn σ a m) (h0 : 0 ≤ σ v)
    (hv : σ v < 2 ^ 31) (h : m * σ v < 2 ^ 31) : Nn σ (.mul a (.var v)) (m * σ v) :=
  ha.mul (Nn.var h0 (le_refl _) hv) h

/-- Inequalities between the sizes of a grid whose value buffer has fewer than `2^31` entries. -/
structure Facts (W : Int) (σ : V → Int) : Prop where
  w9 : 9 ≤ W
  f : 1 ≤ σ .nF
  x : 2 ≤ σ .nx
  y : 2 ≤ σ .ny
  z : 1 ≤ σ .nz
  P4 : 4 ≤ σ .nx * σ .ny
  xP : 2 * σ .nx ≤ σ .nx * σ .ny
  yP : 2 * σ .ny ≤ σ .nx * σ .ny
  PN : σ .nx * σ .ny ≤ σ .nn
  zN : 4 * σ .nz ≤ σ .nn
  nnz : σ .nnz = W * σ .nF
  n9 : 9 * σ .nF ≤ σ .nnz
  F : σ .nnz ≤ σ .nF * σ .nnz
  XF : σ .nn * (σ .nF * σ .nnz) = σ .nnz * σ .nrow
  X4 : 4 * (σ .nF * σ .nnz) ≤ σ .nnz * σ .nrow
  Rr : σ .nrow = σ .nn * σ .nF
  R9 : 9 * σ .nrow ≤ σ .nnz * σ .nrow
  N : σ .nn ≤ σ .nrow
  ff : 9 * (σ .nF * σ .nF) ≤ σ .nF * σ .nnz
  fR : 4 * σ .nF ≤ σ .nrow
  X : σ .nnz * σ .nrow < 2 ^ 31

theorem Dom.facts (h : Dom W σ) (hX : σ .nnz * σ .nrow < 2 ^ 31) : Facts W σ := by
  have hW : 9 ≤ W := by rcases h.dim with h | h <;> omega
  have z1 : 1 ≤ σ .nz := by rcases h.dim with h | h <;> omega
  have x := h.nx
  have y := h.ny
  have f := h.nF
  have xP : 2 * σ .nx ≤ σ .nx * σ .ny := by nlinarith
  have yP : 2 * σ .ny ≤ σ .nx * σ .ny := by nlinarith
  have P4 : 4 ≤ σ .nx * σ .ny := by omega
  have hN := h.nn
  have PN : σ .nx * σ .ny ≤ σ .nn := by rw [hN]; nlinarith
  have zN : 4 * σ .nz ≤ σ .nn := by rw [hN]; nlinarith
  have N4 : 4 ≤ σ .nn := by omega
  have n9 : 9 * σ .nF ≤ σ .nnz := by rw [h.nnz]; nlinarith
  have F : σ .nnz ≤ σ .nF * σ .nnz := by nlinarith
  have XF : σ .nn * (σ .nF * σ .nnz) = σ .nnz * σ .nrow := by rw [h.nrow]; ring
  have Nr : σ .nn ≤ σ .nrow := by rw [h.nrow]; nlinarith
  refine ⟨hW, f, x, y, z1, P4, xP, yP, PN, zN, h.nnz, n9, F, XF, ?_, h.nrow, ?_, Nr, ?_, ?_, hX⟩
  · rw [← XF]; nlinarith
  · nlinarith
  · nlinarith
  · rw [h.nrow]; nlinarith

/-! Terms of the index expressions. -/

section terms
variable (F : Facts W σ)
include F

theorem Facts.nF : Nn σ (.var .nF) (σ .nF) := by
  have := F.f; have := F.fR; have := F.R9; have := F.X
  exact Nn.var (by omega) (le_refl _) (by omega)

theorem Facts.nnzN : Nn σ (.var .nnz) (σ .nnz) := by
  have := F.f; have := F.n9; have := F.F; have := F.X4; have := F.X
  exact Nn.var (by omega) (le_refl _) (by omega)

/-- the start of a block row -/
theorem Facts.q {A : CExp} (hA : Nn σ A (σ .nn - 1)) :
    Nn σ (.mul (.mul A (.var .nF)) (.var .nnz)) (σ .nnz * σ .nrow - σ .nF * σ .nnz) := by
  have f := F.f; have := F.fR; have := F.R9; have := F.X; have := F.n9; have := F.F
  have r := F.Rr
  have X := F.XF
  have e1 : (σ .nn - 1) * σ .nF = σ .nrow - σ .nF := by rw [r]; ring
  have e2 : (σ .nrow - σ .nF) * σ .nnz = σ .nnz * σ .nrow - σ .nF * σ .nnz := by ring
  have h1 := hA.mul F.nF (by rw [e1]; omega)
  rw [e1] at h1
  have h2 := h1.mul F.nnzN (by rw [e2]; omega)
  rwa [e2] at h2

theorem Facts.row {v : V} (h0 : 0 ≤ σ v) (h1 : σ v < σ .nF) :
    Nn σ (.mul (.var v) (.var .nnz)) (σ .nF * σ .nnz - σ .nnz) := by
  have f := F.f; have := F.fR; have := F.R9; have := F.X; have := F.n9; have := F.F; have := F.X4
  have e : (σ .nF - 1) * σ .nnz = σ .nF * σ .nnz - σ .nnz := by ring
  have := (Nn.var (m := σ .nF - 1) h0 (by omega) (by omega)).mul F.nnzN (by rw [e]; omega)
  rwa [e] at this

theorem Facts.row' {v : V} (h0 : 0 ≤ σ v) (h1 : σ v < σ .nF) :
    Nn σ (.mul (.var .nnz) (.var v)) (σ .nF * σ .nnz - σ .nnz) := by
  have f := F.f; have := F.fR; have := F.R9; have := F.X; have := F.n9; have := F.F; have := F.X4
  have e : σ .nnz * (σ .nF - 1) = σ .nF * σ .nnz - σ .nnz := by ring
  have := F.nnzN.mul (Nn.var (m := σ .nF - 1) h0 (by omega) (by omega)) (by rw [e]; omega)
  rwa [e] at this

theorem Facts.pos {A : CExp} (hA : Nn σ A (W - 1)) :
    Nn σ (.mul A (.var .nF)) (σ .nnz - σ .nF) := by
  have f := F.f; have := F.fR; have := F.R9; have := F.X; have := F.n9; have := F.F; have := F.X4
  have e : (W - 1) * σ .nF = σ .nnz - σ .nF := by rw [F.nnz]; ring
  have := hA.mul F.nF (by rw [e]; omega)
  rwa [e] at this

theorem Facts.fld {v : V} (h0 : 0 ≤ σ v) (h1 : σ v < σ .nF) : Nn σ (.var v) (σ .nF - 1) := by
  have f := F.f; have := F.fR; have := F.R9; have := F.X
  exact Nn.var h0 (by omega) (by omega)

theorem Facts.lt : W < 2 ^ 31 := by
  have f := F.f; have w := F.w9; have := F.R9; have := F.X; have := F.F; have := F.X4
  have : W ≤ σ .nnz := by rw [F.nnz]; nlinarith
  omega

/-- a column number -/
theorem Facts.col {A : CExp} {v : V} (hA : Fit σ A) (a0 : -(4 * σ .nn) ≤ A.eval σ)
    (a1 : A.eval σ ≤ 4 * σ .nn) (h0 : 0 ≤ σ v) (h1 : σ v < σ .nF) :
    Fit σ (.add (.mul A (.var .nF)) (.var v)) := by
  have f := F.f; have := F.fR; have := F.R9; have := F.X
  have r := F.Rr
  have e0 : -(4 * σ .nrow) ≤ A.eval σ * σ .nF := by rw [r]; nlinarith
  have e1 : A.eval σ * σ .nF ≤ 4 * σ .nrow := by rw [r]; nlinarith
  refine ⟨⟨hA, F.nF.1, ?_⟩, (F.fld h0 h1).1, ?_⟩
  · simp only [InInt, eval]; omega
  · simp only [InInt, eval]; omega

/-- a node number -/
theorem Facts.nod {a b c : CExp} (D : Dom W σ) (ha : Nn σ a (σ .nx - 1)) (hb : Nn σ b (σ .ny - 1))
    (hc : Nn σ c (σ .nz - 1)) :
    Nn σ (.add (.add (.mul (.mul c (.var .nx)) (.var .ny)) (.mul b (.var .nx))) a)
      (σ .nn - 1) := by
  have f := F.f; have := F.fR; have := F.R9; have := F.X; have x := F.x; have y := F.y
  have z := F.z; have := F.PN; have := F.xP; have := F.yP; have := F.zN; have := F.N
  have hN := D.nn
  have nx := Nn.var (v := .nx) (σ := σ) (m := σ .nx) (by omega) (le_refl _) (by omega)
  have ny := Nn.var (v := .ny) (σ := σ) (m := σ .ny) (by omega) (le_refl _) (by omega)
  have e1 : (σ .nz - 1) * σ .nx * σ .ny = σ .nn - σ .nx * σ .ny := by rw [hN]; ring
  have e2 : (σ .ny - 1) * σ .nx = σ .nx * σ .ny - σ .nx := by ring
  have e0 : (σ .nz - 1) * σ .nx ≤ (σ .nz - 1) * σ .nx * σ .ny := by nlinarith
  have h1 := (hc.mul nx (by omega)).mul ny (by omega)
  have h2 := hb.mul nx (by omega)
  rw [e1] at h1
  rw [e2] at h2
  exact ((h1.add h2 (by omega)).add ha (by omega)).mono (by omega)

theorem Facts.rowSlot {A : CExp} {v s : V} (hA : Nn σ A (σ .nn - 1)) (h0 : 0 ≤ σ v)
    (h1 : σ v < σ .nF) (s0 : 0 ≤ σ s) (s1 : σ s < σ .nnz) :
    Fit σ (.add (.add (.mul (.mul A (.var .nF)) (.var .nnz)) (.mul (.var v) (.var .nnz)))
      (.var s)) := by
  have f := F.f; have := F.fR; have := F.R9; have := F.X; have := F.n9; have := F.F; have := F.X4
  exact (((F.q hA).add (F.row h0 h1) (by omega)).add
    (Nn.var (m := σ .nnz - 1) s0 (by omega) (by omega)) (by omega)).1

theorem Facts.rowPos {A B : CExp} {v v' : V} (hA : Nn σ A (σ .nn - 1)) (hB : Nn σ B (W - 1))
    (h0 : 0 ≤ σ v) (h1 : σ v < σ .nF) (k0 : 0 ≤ σ v') (k1 : σ v' < σ .nF) :
    Fit σ (.add (.add (.add (.mul (.mul A (.var .nF)) (.var .nnz)) (.mul (.var v) (.var .nnz)))
      (.mul B (.var .nF))) (.var v')) := by
  have f := F.f; have := F.fR; have := F.R9; have := F.X; have := F.n9; have := F.F; have := F.X4
  exact ((((F.q hA).add (F.row h0 h1) (by omega)).add (F.pos hB) (by omega)).add
    (F.fld k0 k1) (by omega)).1

theorem Facts.rowPos' {A B : CExp} {v v' : V} (hA : Nn σ A (σ .nn - 1)) (hB : Nn σ B (W - 1))
    (h0 : 0 ≤ σ v) (h1 : σ v < σ .nF) (k0 : 0 ≤ σ v') (k1 : σ v' < σ .nF) :
    Fit σ (.add (.add (.add (.mul (.mul A (.var .nF)) (.var .nnz)) (.mul B (.var .nF)))
      (.mul (.var v) (.var .nnz))) (.var v')) := by
  have f := F.f; have := F.fR; have := F.R9; have := F.X; have := F.n9; have := F.F; have := F.X4
  exact ((((F.q hA).add (F.pos hB) (by omega)).add (F.row h0 h1) (by omega)).add
    (F.fld k0 k1) (by omega)).1

/-- the position of an entry of the pattern within a block row -/
theorem Facts.ent {B : CExp} {v v' : V} (hB : Nn σ B (W - 1))
    (h0 : 0 ≤ σ v) (h1 : σ v < σ .nF) (k0 : 0 ≤ σ v') (k1 : σ v' < σ .nF) :
    Fit σ (.add (.add (.mul B (.var .nF)) (.mul (.var .nnz) (.var v))) (.var v')) := by
  have f := F.f; have := F.fR; have := F.R9; have := F.X; have := F.n9; have := F.F; have := F.X4
  exact (((F.pos hB).add (F.row' h0 h1) (by omega)).add (F.fld k0 k1) (by omega)).1

/-- the position at which an element matrix is added -/
theorem Facts.addPos (D : Dom W σ) :
    Fit σ (.add (.add (.add (.mul (.var .node) (.var .fnnz)) (.mul (.var .d1) (.var .nnz)))
      (.mul (.var .l) (.var .nF))) (.var .d2)) := by
  have f := F.f; have := F.fR; have := F.R9; have := F.X; have := F.n9; have := F.F; have := F.X4
  have N := F.N
  have hl : Nn σ (.var .l) (W - 1) := Nn.var D.l.1 (by have := D.l.2; omega) (by have := F.lt; omega)
  have hn : Nn σ (.var .node) (σ .nn - 1) :=
    Nn.var D.node.1 (by have := D.node.2; omega) (by omega)
  have hf : Nn σ (.var .fnnz) (σ .nF * σ .nnz) :=
    Nn.var (by rw [D.fnnz]; omega) (le_of_eq D.fnnz) (by omega)
  have e : (σ .nn - 1) * (σ .nF * σ .nnz) = σ .nnz * σ .nrow - σ .nF * σ .nnz := by
    rw [sub_mul, F.XF]; ring
  have hq := hn.mul hf (by rw [e]; omega)
  rw [e] at hq
  exact (((hq.add (F.row D.d1.1 D.d1.2) (by omega)).add (F.pos hl) (by omega)).add
    (F.fld D.d2.1 D.d2.2) (by omega)).1

/-- the position in the element matrix -/
theorem Facts.ae (D : Dom W σ) :
    Fit σ (.add (.add (.add (.mul (.var .ak) (.var .pf2)) (.mul (.var .d1) (.var .pf)))
      (.mul (.var .an) (.var .nF))) (.var .d2)) := by
  have f := F.f; have := F.fR; have := F.R9; have X := F.X; have n9 := F.n9; have := F.F
  have X4 := F.X4
  have ff := F.ff
  have p1 : 1 ≤ σ .npe := by rcases D.dim with h | h <;> omega
  have p8 : σ .npe ≤ 8 := by rcases D.dim with h | h <;> omega
  have g0 : σ .nF ≤ σ .nF * σ .nF := by nlinarith
  have ep : σ .pf = σ .npe * σ .nF := D.pf
  have ep2 : σ .pf2 = σ .npe * (σ .nF * σ .nF) := by rw [D.pf2]; ring
  -- `64 nF² ≤ nnz nrow`
  have hX8 : σ .npe = 8 → 64 * (σ .nF * σ .nF) ≤ σ .nnz * σ .nrow := by
    intro h8
    have hW : W = 27 := by rcases D.dim with h | h <;> omega
    have : σ .nF * σ .nnz = 27 * (σ .nF * σ .nF) := by rw [F.nnz, hW]; ring
    omega
  have hX4 : 16 * (σ .nF * σ .nF) ≤ σ .nnz * σ .nrow := by omega
  have hak := Nn.var (σ := σ) (v := .ak) (m := σ .npe - 1) D.ak.1 (by have := D.ak.2; omega)
    (by omega)
  have han := Nn.var (σ := σ) (v := .an) (m := σ .npe - 1) D.an.1 (by have := D.an.2; omega)
    (by omega)
  rcases (by rcases D.dim with h | h <;> omega : σ .npe = 4 ∨ σ .npe = 8) with h | h
  · rw [h] at ep ep2 hak han
    have hp2 := Nn.var (σ := σ) (v := .pf2) (m := 4 * (σ .nF * σ .nF)) (by omega) (by omega)
      (by omega)
    have hp := Nn.var (σ := σ) (v := .pf) (m := 4 * σ .nF) (by omega) (by omega) (by omega)
    have e : (σ .nF - 1) * (4 * σ .nF) = 4 * (σ .nF * σ .nF) - 4 * σ .nF := by ring
    have t1 := hak.mul hp2 (by omega)
    have t2 := (F.fld D.d1.1 D.d1.2).mul hp (by rw [e]; omega)
    rw [e] at t2
    have t3 := han.mul F.nF (by omega)
    exact (((t1.add t2 (by omega)).add t3 (by omega)).add (F.fld D.d2.1 D.d2.2) (by omega)).1
  · have hX8 := hX8 h
    rw [h] at ep ep2 hak han
    have hp2 := Nn.var (σ := σ) (v := .pf2) (m := 8 * (σ .nF * σ .nF)) (by omega) (by omega)
      (by omega)
    have hp := Nn.var (σ := σ) (v := .pf) (m := 8 * σ .nF) (by omega) (by omega) (by omega)
    have e : (σ .nF - 1) * (8 * σ .nF) = 8 * (σ .nF * σ .nF) - 8 * σ .nF := by ring
    have t1 := hak.mul hp2 (by omega)
    have t2 := (F.fld D.d1.1 D.d1.2).mul hp (by rw [e]; omega)
    rw [e] at t2
    have t3 := han.mul F.nF (by omega)
    exact (((t1.add t2 (by omega)).add t3 (by omega)).add (F.fld D.d2.1 D.d2.2) (by omega)).1

end terms

theorem occCommon_fit (D : Dom W σ) (hX : σ .nnz * σ .nrow < 2 ^ 31) :
    ∀ o ∈ occCommon, Fit σ o.e := by
  have F := D.facts hX
  have f := F.f; have := F.fR; have := F.R9; have := F.X; have n9 := F.n9; have := F.F
  have := F.X4; have := F.N; have := F.PN; have := F.P4
  have hn : Nn σ (.var .node) (σ .nn - 1) :=
    Nn.var D.node.1 (by have := D.node.2; omega) (by omega)
  simp only [occCommon, List.forall_mem_cons]
  refine ⟨?_, ?_, ?_, ?_, ?_, ?_, fun o ho => absurd ho (by simp)⟩
  · exact inInt_of hX (by omega) (by omega)
  · exact F.nnzN.1
  · have e : (σ .nrow - 1) * σ .nnz = σ .nnz * σ .nrow - σ .nnz := by ring
    have h := (Nn.var (σ := σ) (v := .row) (m := σ .nrow - 1) D.row.1
      (by have := D.row.2; omega) (by omega)).mul F.nnzN (by rw [e]; omega)
    rw [e] at h
    exact (h.add (Nn.var (m := σ .nnz - 1) D.slot.1 (by have := D.slot.2; omega) (by omega))
      (by omega)).1
  · exact inInt_of hX (by omega) (by omega)
  · exact F.nF.1
  · have := hn.2
    exact F.col hn.1 (by omega) (by omega) D.d.1 D.d.2

/-- Closes `Fit σ e` and range goals for `e` linear up to products that are in the context. -/
macro "linfit" : tactic =>
  `(tactic| (simp only [Fit, eval, InInt]; (repeat' apply And.intro) <;> omega))

set_option maxHeartbeats 1000000 in
theorem occ2D_fit (D : Dom 9 σ) (hX : σ .nnz * σ .nrow < 2 ^ 31) :
    ∀ o ∈ occ2D, Fit σ o.e := by
  have F := D.facts hX
  have f := F.f; have := F.fR; have := F.R9; have := F.X; have n9 := F.n9; have := F.F
  have := F.X4; have := F.N; have := F.PN; have := F.P4; have := F.xP; have := F.yP
  have x := F.x; have y := F.y; have ff := F.ff; have r := F.Rr
  have hnode := D.node
  obtain ⟨hz, hp⟩ : σ .nz = 1 ∧ σ .npe = 4 := by rcases D.dim with h | h <;> omega
  have hnn : σ .nn = σ .nx * σ .ny := by rw [D.nn, hz]; ring
  have hx := D.ex; have hy := D.ey; have hbx := D.bx; have hby := D.by'
  have e1 : (σ .ny - 1) * σ .nx = σ .nx * σ .ny - σ .nx := by ring
  have e2 : (σ .ny - 2) * σ .nx = σ .nx * σ .ny - 2 * σ .nx := by ring
  have e3 : (σ .ey + 1) * σ .nx = σ .ey * σ .nx + σ .nx := by ring
  have e4 : (σ .by + 1) * σ .nx = σ .by * σ .nx + σ .nx := by ring
  have e5 : (σ .by + 2) * σ .nx = σ .by * σ .nx + 2 * σ .nx := by ring
  have b1 : 0 ≤ σ .ey * σ .nx := mul_nonneg hy.1 (by omega)
  have b2 : σ .ey * σ .nx ≤ σ .nx * σ .ny - 2 * σ .nx := by
    rw [← e2]; exact mul_le_mul_of_nonneg_right (by omega) (by omega)
  have b3 : 0 ≤ σ .by * σ .nx := mul_nonneg hby.1 (by omega)
  have b4 : σ .by * σ .nx ≤ σ .nx * σ .ny - 2 * σ .nx := by
    rw [← e2]; exact mul_le_mul_of_nonneg_right (by omega) (by omega)
  have e6 : σ .npe * σ .nF = 4 * σ .nF := by rw [hp]
  have e7 : σ .npe * σ .nF * σ .nF = 4 * (σ .nF * σ .nF) := by rw [hp]; ring
  have e8 : σ .nn * σ .nF = σ .nrow := r.symm
  have g0 : 0 ≤ σ .nF * σ .nF := mul_nonneg (by omega) (by omega)
  have hd := D.d; have hd1 := D.d1; have hd2 := D.d2; have hs := D.slot; have hl := D.l
  unfold occ2D
  repeat' first
    | exact List.forall_mem_nil _
    | refine List.forall_mem_cons.2 ⟨?_, ?_⟩
  all_goals dsimp only
  all_goals first
    | exact F.addPos D
    | exact F.ae D
    | exact F.ent ⟨by linfit, by simp only [eval]; omega, by simp only [eval]; omega⟩
        hd1.1 hd1.2 hd2.1 hd2.2
    | exact F.col (by linfit) (by simp only [eval]; omega) (by simp only [eval]; omega) hd2.1 hd2.2
    | exact F.rowSlot ⟨by linfit, by simp only [eval]; omega, by simp only [eval]; omega⟩
        hd.1 hd.2 hs.1 hs.2
    | exact F.rowPos ⟨by linfit, by simp only [eval]; omega, by simp only [eval]; omega⟩
        ⟨by linfit, by simp only [eval]; omega, by simp only [eval]; omega⟩ hd1.1 hd1.2 hd2.1 hd2.2
    | exact F.rowPos ⟨by linfit, by simp only [eval]; omega, by simp only [eval]; omega⟩
        ⟨by linfit, by simp only [eval]; omega, by simp only [eval]; omega⟩ hd.1 hd.2 hd.1 hd.2
    | exact F.rowPos' ⟨by linfit, by simp only [eval]; omega, by simp only [eval]; omega⟩
        ⟨by linfit, by simp only [eval]; omega, by simp only [eval]; omega⟩ hd.1 hd.2 hd.1 hd.2
    | exact (F.q ⟨by linfit, by simp only [eval]; omega, by simp only [eval]; omega⟩).1
    | linfit

set_option maxHeartbeats 2000000 in
theorem occ3D_fit (D : Dom 27 σ) (hX : σ .nnz * σ .nrow < 2 ^ 31) :
    ∀ o ∈ occ3D, Fit σ o.e := by
  have F := D.facts hX
  have f := F.f; have := F.fR; have := F.R9; have := F.X; have n9 := F.n9; have := F.F
  have := F.X4; have := F.N; have := F.PN; have := F.P4; have := F.xP; have := F.yP
  have := F.zN
  have x := F.x; have y := F.y; have ff := F.ff; have r := F.Rr
  have hnode := D.node
  obtain ⟨hz, hp, hez0, hez1⟩ :
      2 ≤ σ .nz ∧ σ .npe = 8 ∧ 0 ≤ σ .ez ∧ σ .ez < σ .nz - 1 := by
    rcases D.dim with h | h
    · omega
    · exact h.2
  have hx := D.ex; have hy := D.ey; have hi := D.i; have hj := D.j; have hk := D.k
  have e2 : (σ .ny - 2) * σ .nx = σ .nx * σ .ny - 2 * σ .nx := by ring
  have e3 : (σ .ey + 1) * σ .nx = σ .ey * σ .nx + σ .nx := by ring
  have b1 : 0 ≤ σ .ey * σ .nx := mul_nonneg hy.1 (by omega)
  have b2 : σ .ey * σ .nx ≤ σ .nx * σ .ny - 2 * σ .nx := by
    rw [← e2]; exact mul_le_mul_of_nonneg_right (by omega) (by omega)
  have e4 : (σ .nz - 2) * (σ .nx * σ .ny) = σ .nn - 2 * (σ .nx * σ .ny) := by rw [D.nn]; ring
  have b3 : 0 ≤ σ .ez * (σ .nx * σ .ny) := mul_nonneg hez0 (by omega)
  have b4 : σ .ez * (σ .nx * σ .ny) ≤ σ .nn - 2 * (σ .nx * σ .ny) := by
    rw [← e4]; exact mul_le_mul_of_nonneg_right (by omega) (by omega)
  have e5 : σ .nx * σ .ny * σ .nz = σ .nn := D.nn.symm
  have e6 : σ .npe * σ .nF = 8 * σ .nF := by rw [hp]
  have e7 : σ .npe * σ .nF * σ .nF = 8 * (σ .nF * σ .nF) := by rw [hp]; ring
  have e8 : σ .nn * σ .nF = σ .nrow := r.symm
  have g0 : 0 ≤ σ .nF * σ .nF := mul_nonneg (by omega) (by omega)
  have hd := D.d; have hd1 := D.d1; have hd2 := D.d2; have hs := D.slot; have hl := D.l
  unfold occ3D
  repeat' first
    | exact List.forall_mem_nil _
    | refine List.forall_mem_cons.2 ⟨?_, ?_⟩
  all_goals dsimp only
  all_goals first
    | exact F.addPos D
    | exact (F.nod D ⟨by linfit, by simp only [eval]; omega, by simp only [eval]; omega⟩
        ⟨by linfit, by simp only [eval]; omega, by simp only [eval]; omega⟩
        ⟨by linfit, by simp only [eval]; omega, by simp only [eval]; omega⟩).1
    | exact F.ae D
    | exact F.ent ⟨by linfit, by simp only [eval]; omega, by simp only [eval]; omega⟩
        hd1.1 hd1.2 hd2.1 hd2.2
    | exact F.col (by linfit) (by simp only [eval]; omega) (by simp only [eval]; omega) hd2.1 hd2.2
    | exact F.rowSlot ⟨by linfit, by simp only [eval]; omega, by simp only [eval]; omega⟩
        hd.1 hd.2 hs.1 hs.2
    | exact F.rowPos ⟨by linfit, by simp only [eval]; omega, by simp only [eval]; omega⟩
        ⟨by linfit, by simp only [eval]; omega, by simp only [eval]; omega⟩ hd1.1 hd1.2 hd2.1 hd2.2
    | exact F.rowPos ⟨by linfit, by simp only [eval]; omega, by simp only [eval]; omega⟩
        ⟨by linfit, by simp only [eval]; omega, by simp only [eval]; omega⟩ hd.1 hd.2 hd.1 hd.2
    | exact F.rowPos' ⟨by linfit, by simp only [eval]; omega, by simp only [eval]; omega⟩
        ⟨by linfit, by simp only [eval]; omega, by simp only [eval]; omega⟩ hd.1 hd.2 hd.1 hd.2
    | exact (F.q ⟨by linfit, by simp only [eval]; omega, by simp only [eval]; omega⟩).1
    | linfit

theorem Nn.lt {a : CExp} {m : Int} (h : Nn σ a (m - 1)) : 0 ≤ a.eval σ ∧ a.eval σ < m :=
  ⟨h.2.1, by have := h.2.2; omega⟩

theorem nodes2D_mem (D : Dom 9 σ) (hX : σ .nnz * σ .nrow < 2 ^ 31) :
    ∀ o ∈ nodes2D, 0 ≤ o.e.eval σ ∧ o.e.eval σ < σ .nn := by
  have F := D.facts hX
  have f := F.f; have := F.fR; have := F.R9; have := F.X; have n9 := F.n9; have := F.F
  have := F.X4; have := F.N; have := F.PN; have := F.P4; have := F.xP; have := F.yP
  have x := F.x; have y := F.y; have ff := F.ff; have r := F.Rr
  have hnode := D.node
  obtain ⟨hz, hp⟩ : σ .nz = 1 ∧ σ .npe = 4 := by rcases D.dim with h | h <;> omega
  have hnn : σ .nn = σ .nx * σ .ny := by rw [D.nn, hz]; ring
  have hx := D.ex; have hy := D.ey; have hbx := D.bx; have hby := D.by'
  have e1 : (σ .ny - 1) * σ .nx = σ .nx * σ .ny - σ .nx := by ring
  have e2 : (σ .ny - 2) * σ .nx = σ .nx * σ .ny - 2 * σ .nx := by ring
  have e3 : (σ .ey + 1) * σ .nx = σ .ey * σ .nx + σ .nx := by ring
  have e4 : (σ .by + 1) * σ .nx = σ .by * σ .nx + σ .nx := by ring
  have e5 : (σ .by + 2) * σ .nx = σ .by * σ .nx + 2 * σ .nx := by ring
  have b1 : 0 ≤ σ .ey * σ .nx := mul_nonneg hy.1 (by omega)
  have b2 : σ .ey * σ .nx ≤ σ .nx * σ .ny - 2 * σ .nx := by
    rw [← e2]; exact mul_le_mul_of_nonneg_right (by omega) (by omega)
  have b3 : 0 ≤ σ .by * σ .nx := mul_nonneg hby.1 (by omega)
  have b4 : σ .by * σ .nx ≤ σ .nx * σ .ny - 2 * σ .nx := by
    rw [← e2]; exact mul_le_mul_of_nonneg_right (by omega) (by omega)
  have e6 : σ .npe * σ .nF = 4 * σ .nF := by rw [hp]
  have e7 : σ .npe * σ .nF * σ .nF = 4 * (σ .nF * σ .nF) := by rw [hp]; ring
  have e8 : σ .nn * σ .nF = σ .nrow := r.symm
  have g0 : 0 ≤ σ .nF * σ .nF := mul_nonneg (by omega) (by omega)
  have hd := D.d; have hd1 := D.d1; have hd2 := D.d2; have hs := D.slot; have hl := D.l
  unfold nodes2D
  repeat' first
    | exact List.forall_mem_nil _
    | refine List.forall_mem_cons.2 ⟨?_, ?_⟩
  all_goals dsimp only
  all_goals first
    | (simp only [eval]; constructor <;> omega)

set_option maxHeartbeats 1000000 in
theorem nodes3D_mem (D : Dom 27 σ) (hX : σ .nnz * σ .nrow < 2 ^ 31) :
    ∀ o ∈ nodes3D, 0 ≤ o.e.eval σ ∧ o.e.eval σ < σ .nn := by
  have F := D.facts hX
  have f := F.f; have := F.fR; have := F.R9; have := F.X; have n9 := F.n9; have := F.F
  have := F.X4; have := F.N; have := F.PN; have := F.P4; have := F.xP; have := F.yP
  have := F.zN
  have x := F.x; have y := F.y; have ff := F.ff; have r := F.Rr
  have hnode := D.node
  obtain ⟨hz, hp, hez0, hez1⟩ :
      2 ≤ σ .nz ∧ σ .npe = 8 ∧ 0 ≤ σ .ez ∧ σ .ez < σ .nz - 1 := by
    rcases D.dim with h | h
    · omega
    · exact h.2
  have hx := D.ex; have hy := D.ey; have hi := D.i; have hj := D.j; have hk := D.k
  have e2 : (σ .ny - 2) * σ .nx = σ .nx * σ .ny - 2 * σ .nx := by ring
  have e3 : (σ .ey + 1) * σ .nx = σ .ey * σ .nx + σ .nx := by ring
  have b1 : 0 ≤ σ .ey * σ .nx := mul_nonneg hy.1 (by omega)
  have b2 : σ .ey * σ .nx ≤ σ .nx * σ .ny - 2 * σ .nx := by
    rw [← e2]; exact mul_le_mul_of_nonneg_right (by omega) (by omega)
  have e4 : (σ .nz - 2) * (σ .nx * σ .ny) = σ .nn - 2 * (σ .nx * σ .ny) := by rw [D.nn]; ring
  have b3 : 0 ≤ σ .ez * (σ .nx * σ .ny) := mul_nonneg hez0 (by omega)
  have b4 : σ .ez * (σ .nx * σ .ny) ≤ σ .nn - 2 * (σ .nx * σ .ny) := by
    rw [← e4]; exact mul_le_mul_of_nonneg_right (by omega) (by omega)
  have e5 : σ .nx * σ .ny * σ .nz = σ .nn := D.nn.symm
  have e6 : σ .npe * σ .nF = 8 * σ .nF := by rw [hp]
  have e7 : σ .npe * σ .nF * σ .nF = 8 * (σ .nF * σ .nF) := by rw [hp]; ring
  have e8 : σ .nn * σ .nF = σ .nrow := r.symm
  have g0 : 0 ≤ σ .nF * σ .nF := mul_nonneg (by omega) (by omega)
  have hd := D.d; have hd1 := D.d1; have hd2 := D.d2; have hs := D.slot; have hl := D.l
  unfold nodes3D
  repeat' first
    | exact List.forall_mem_nil _
    | refine List.forall_mem_cons.2 ⟨?_, ?_⟩
  all_goals dsimp only
  all_goals first
    | exact Nn.lt (F.nod D ⟨by linfit, by simp only [eval]; omega, by simp only [eval]; omega⟩
        ⟨by linfit, by simp only [eval]; omega, by simp only [eval]; omega⟩
        ⟨by linfit, by simp only [eval]; omega, by simp only [eval]; omega⟩)
    | (simp only [eval]; constructor <;> omega)
end
end Verif
