#!/usr/bin/env python3
# Generates lean/Verif/Lemmas/EllStencil3D.lean (one lemma per table and the 27-step composition).
import re
src = open("/verif/lean/Verif/Model/EllInit3D.lean").read()
# calls in order
calls = re.findall(r"let c ← (.*?)(?=\n  --|\n  pure)", src, re.S)
o = ["""import Verif.Lemmas.EllIndex

/-! # The 27 loop nests of `ell_init_3D` (generated by /verif/tools/gen_stencil_lemmas.py) -/

set_option linter.unusedTactic false
set_option linter.unreachableTactic false
set_option linter.unnecessarySeqFocus false

namespace Verif
open Spec
"""]
B = []
for k,c in enumerate(calls):
    loops = re.findall(r"loopFrom 1 \((n[xyz]) - 1\) \(fun ([ijk])", c)
    m = re.search(r"\(nodIndex nx ny (.*?)\) \(stencil3D_%02d" % k, c, re.S)
    args = re.findall(r"\([^()]*\)|\w+", m.group(1))
    fl = []
    for a in args:
        fl.append("true" if a == "0" else "false")
        fl.append("true" if "- 1" in a else "false")
    B.append((loops, args, fl))
    o.append("theorem stencil3D_%02d_eq (nn nx ny : Int) :\n    stencil3D_%02d nn nx ny = genStencil %s nn nx ny := by\n  simp [stencil3D_%02d, genStencil, List.range_succ]%s\n" % (k,k," ".join(fl),k, "\n  try ring_nf\n  try simp"))
o.append("""/-- Column stored at index `q`, by the neighbour specification. -/
def colSpec3 (nF nx ny nz q : Nat) : Int :=
  slotCol nF (nbr3 nx ny nz (ixN nF 27 q % nx) (ixN nF 27 q / nx % ny) (ixN nF 27 q / nx / ny)
    (ixS nF 27 q)) (ixD2 nF 27 q)

theorem node3_coords {nx ny i j k : Nat} (hi : i < nx) (hj : j < ny) :
    node3 nx ny i j k % nx = i ∧ node3 nx ny i j k / nx % ny = j ∧
      node3 nx ny i j k / nx / ny = k := by
  have e : node3 nx ny i j k = (k * ny + j) * nx + i := by unfold node3; ring
  rw [e, mul_add_mod' hi, mul_add_div' hi, mul_add_mod' hj, mul_add_div' hj]
  exact ⟨rfl, rfl, rfl⟩

theorem colSpec3_slotIx {nF nx ny nz i j k d s d2 : Nat} (hi : i < nx) (hj : j < ny)
    (hd : d < nF) (hs : s < 27) (h2 : d2 < nF) :
    colSpec3 nF nx ny nz (slotIx nF 27 (node3 nx ny i j k) d s d2)
      = slotCol nF (nbr3 nx ny nz i j k s) d2 := by
  unfold colSpec3
  obtain ⟨e1, e2, e3⟩ := node3_coords (k := k) hi hj
  rw [ixN_slotIx hd hs h2, ixS_slotIx hs h2, ixD2_slotIx h2, e1, e2, e3]

/-- The entries of the rows of node `(i, j, k)`. -/
def NodeRows (nF nx ny i j k q : Nat) : Prop :=
  ∃ d s d2, d < nF ∧ s < 27 ∧ d2 < nF ∧ q = slotIx nF 27 (node3 nx ny i j k) d s d2

theorem fillNode3_setTo {nF nx ny nz i j k : Nat} {tab : List (Option Int)}
    {lx hx ly hy lz hz : Bool}
    (hi : i < nx) (hj : j < ny) (hk : k < nz)
    (ht : tab = genStencil lx hx ly hy lz hz (nodIndex nx ny i j k : Nat) nx ny)
    (elx : lx = true ↔ i = 0) (ehx : hx = true ↔ i + 1 = nx)
    (ely : ly = true ↔ j = 0) (ehy : hy = true ↔ j + 1 = ny)
    (elz : lz = true ↔ k = 0) (ehz : hz = true ↔ k + 1 = nz) :
    SetTo (27 * nF * (nx * ny * nz * nF)) (colSpec3 nF nx ny nz) (NodeRows nF nx ny i j k)
      (fillNode nF (27 * nF) (nodIndex nx ny i j k) tab) := by
  rw [nodIndex_eq] at *
  refine fillNode_setTo (node3_lt hi hj hk) (by rw [ht]; simp [genStencil]) ?_
  intro d s d2 hd hs h2
  rw [colSpec3_slotIx hi hj hd hs h2, ht]
  exact (genStencil_spec hi hj hk hs elx ehx ely ehy elz ehz).symm
""")
o.append("""theorem ellInit3D_cols {α : Type} (jc : Nat → Int) (jv : Nat → α) {nF nx ny nz : Nat}
    (hx : 2 ≤ nx) (hy : 2 ≤ ny) (hz : 2 ≤ nz) :
    ∃ c : Buf Int, ellInit3D jc jv nF nx ny nz = .ok
        { nrow := nx * ny * nz * nF, ncol := nx * ny * nz * nF, nnz := 27 * nF, cols := c,
          vals := ⟨27 * nF * (nx * ny * nz * nF), jv⟩ } ∧
      c.size = 27 * nF * (nx * ny * nz * nF) ∧
      ∀ q, q < 27 * nF * (nx * ny * nz * nF) → c.val q = colSpec3 nF nx ny nz q := by
  unfold ellInit3D""")
dimof = {"i":"nx","j":"ny","k":"nz"}
for k,(loops,args,fl) in enumerate(B):
    a = " ".join(args)
    body = "fillNode nF (27 * nF) (nodIndex nx ny %s) (stencil3D_%02d (nodIndex nx ny %s : Nat) nx ny)" % (a,k,a)
    f = body
    if loops:
        f = ""
        for n,v in loops: f += "loopFrom 1 (%s - 1) (fun %s c => " % (n,v)
        f += body + " c" + "".join(") c" for _ in loops)
        f = "fun c => " + f
    pred = "NodeRows nF nx ny %s" % a
    if loops:
        pr = ""
        for n,v in loops: pr += "∃ %s, 1 ≤ %s ∧ %s < %s - 1 ∧ " % (v,v,v,n)
        pred = "fun q => " + pr + "NodeRows nF nx ny %s q" % a
    else:
        pred = "fun q => NodeRows nF nx ny %s q" % a
    core = "fillNode3_setTo (by omega) (by omega) (by omega) (stencil3D_%02d_eq _ _ _)\n      %s" % (k, "\n      ".join("(by simp%s)" % ("" ) if False else "(by simp; try omega)" for _ in range(6)))
    prf = core
    o.append("  have h%02d : SetTo (27 * nF * (nx * ny * nz * nF)) (colSpec3 nF nx ny nz)\n      (%s)\n      (%s) := by" % (k, pred, f))
    for n,v in loops:
        o.append("    refine SetTo.loopFrom fun %s _ _ => ?_" % v)
    o.append("    exact fillNode3_setTo (by omega) (by omega) (by omega) (stencil3D_%02d_eq _ _ _)" % k)
    o.append("      (by simp <;> omega) (by simp <;> omega) (by simp <;> omega) (by simp <;> omega) (by simp <;> omega)\n      (by simp <;> omega)")
acc = "h00"
for k in range(1,27): acc = "(SetTo.bind %s h%02d)" % (acc,k)
# left nested binds
o.append("  have H := %s" % acc)

o.append("""  obtain ⟨c, hc, hsz, hval, -⟩ := H ⟨27 * nF * (nx * ny * nz * nF), jc⟩ rfl
  refine ⟨c, ?_, hsz, ?_⟩
  · have e : ∀ g : Buf Int → M (Ell α), g c = (Except.ok c : M (Buf Int)).bind g := fun _ => rfl
    refine Eq.trans ?_ (e fun c =>
      .ok { nrow := nx * ny * nz * nF, ncol := nx * ny * nz * nF, nnz := 27 * nF, cols := c,
            vals := ⟨27 * nF * (nx * ny * nz * nF), jv⟩ }).symm
    rw [← hc]
    simp only [M_bind_assoc]
    rfl
  · intro q hq
    apply hval
    obtain ⟨hn, hd, hs, h2, e⟩ := slotIx_surj hq
    obtain ⟨i, j, k, hi, hj, hk, en⟩ := node3_surj hn
    have R : NodeRows nF nx ny i j k q := ⟨_, _, _, hd, hs, h2, by rw [← en]; exact e.symm⟩
    clear e en hn hd hs h2 hval hsz hc hq
    have ci : i = 0 ∨ i = nx - 1 ∨ (1 ≤ i ∧ i < nx - 1) := by omega
    have cj : j = 0 ∨ j = ny - 1 ∨ (1 ≤ j ∧ j < ny - 1) := by omega
    have ck : k = 0 ∨ k = nz - 1 ∨ (1 ≤ k ∧ k < nz - 1) := by omega
    rcases ci with rfl | rfl | ⟨i1, i2⟩ <;> rcases cj with rfl | rfl | ⟨j1, j2⟩ <;>
      rcases ck with rfl | rfl | ⟨k1, k2⟩""")
cls = {"0":0}
def c(a): return 0 if a=="0" else (1 if "- 1" in a else 2)
order = {}
for k,(loops,args,fl) in enumerate(B):
    order[tuple(c(a) for a in args)] = (k,loops)
for a in range(3):
    for b in range(3):
        for d in range(3):
            k,loops = order[(a,b,d)]
            t = "R"
            for n,v in reversed(loops): t = "⟨%s, %s1, %s2, %s⟩" % (v,v,v,t)
            if k>0: t = "Or.inr (%s)" % t if t=="R" or True else t
            t = t.replace("Or.inr (R)","Or.inr R")
            for _ in range(26-k): t = "Or.inl (%s)" % t
            o.append("    · exact %s" % t)
o.append("\nend Verif")
open("/verif/lean/Verif/Lemmas/EllStencil3D.lean","w").write("\n".join(o)+"\n")
