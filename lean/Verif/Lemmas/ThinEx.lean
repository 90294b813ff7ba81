import Verif.Lemmas.Thin

/-!
# A concrete cell of two elements, one plastic and one elastic
-/

namespace Verif
open Spec Finset

/-- A cell of `1 × 2 × 1` with `2 × 3 × 2` nodes: below a plastic, above an elastic element. -/
noncomputable def exArgsT : Args ℝ where
  dim := 3
  size := fun i => if i = 1 then 3 else 2
  microType := 1
  microParams := fun i => if i = 1 then 2 else 1
  matTypes := fun i => if i = 1 then 1 else 0
  params := fun i => if i % 10 = 0 then 10 else if i % 10 = 1 then 1 / 4 else 1

theorem exArgsT_ok : exArgsT.Ok := by
  refine ⟨Or.inr rfl, Or.inr rfl, ?_, ?_, fun _ => ?_⟩ <;> simp [exArgsT]

theorem exArgsT_geom : exArgsT.Geom := by
  refine ⟨?_, ?_, fun _ => ?_⟩ <;> norm_num [exArgsT]

/-- The facts about the configuration of such an object. -/
structure IsT (c : Cfg ℝ) : Prop where
  ok : c.Ok
  geom : c.Geom
  dim : c.dim = 3
  nx : c.nx = 2
  ny : c.ny = 3
  nz : c.nz = 2
  lx : c.lx = 1
  ly : c.ly = 2
  lz : c.lz = 1
  dx : c.dx = 1
  dy : c.dy = 1
  dz : c.dz = 1
  low : matOf c 0 = ⟨10, 1 / 4, 20 / 3, 4, 4, 1, 1, true, false⟩
  high : matOf c 1 = ⟨10, 1 / 4, 20 / 3, 4, 4, 1, 1, false, false⟩

theorem BuiltFrom.isT {j : Junk ℝ} {c : Cfg ℝ} (h : BuiltFrom exArgsT j c) : IsT c := by
  have hg := h.geom exArgsT_geom
  have hk := h.ok
  have hel := h.elem
  obtain ⟨et, ct, rfl⟩ := h.eq
  refine ⟨hk, hg, rfl, ?_, ?_, ?_, ?_, ?_, ?_, ?_, ?_, ?_, ?_, ?_⟩
  · simp [mkCfg, exArgsT]
  · simp [mkCfg, exArgsT]
  · simp [mkCfg, exArgsT]
  · simp [mkCfg, exArgsT]
  · simp [mkCfg, exArgsT]
  · simp [mkCfg, exArgsT]
  · simp [mkCfg, exArgsT]
  · simp [mkCfg, exArgsT]
  · simp [mkCfg, exArgsT]
  · have h0 := hel 0 0 0 (by simp [mkCfg, exArgsT]) (by simp [mkCfg, exArgsT])
      (fun _ => rfl) (fun _ => by simp [mkCfg, exArgsT])
    have e : elemTypeOf { mkCfg exArgsT j et with ctanLin := ct } 0 0 0 = 1 := by
      unfold elemTypeOf getElemType3D
      norm_num [mkCfg, exArgsT, lt_real]
    rw [e] at h0
    unfold matOf
    have h0 : et.val 0 = 1 := h0
    show (mkCfg exArgsT j et).mats (if et.val 0 = 0 then 0 else 1) = _
    rw [h0]
    norm_num [mkCfg, exArgsT, mkMaterial]
  · have h0 := hel 0 1 0 (by simp [mkCfg, exArgsT]) (by simp [mkCfg, exArgsT])
      (fun _ => rfl) (fun _ => by simp [mkCfg, exArgsT])
    have e : elemTypeOf { mkCfg exArgsT j et with ctanLin := ct } 0 1 0 = 0 := by
      unfold elemTypeOf getElemType3D
      norm_num [mkCfg, exArgsT, lt_real]
    rw [e] at h0
    unfold matOf
    have h0 : et.val 1 = 0 := h0
    show (mkCfg exArgsT j et).mats (if et.val 1 = 0 then 0 else 1) = _
    rw [h0]
    norm_num [mkCfg, exArgsT, mkMaterial]

end Verif
