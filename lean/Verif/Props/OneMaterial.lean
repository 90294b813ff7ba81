import Verif.Lemmas.OneMaterial

/-!
# C112: with equal materials the microstructure does not matter
-/

namespace Verif.Props
open Verif

section
variable {α : Type} [Scalar α] {env : Env α} {a : Args α} {j : Junk α} {calls : List (Call α)} {s : ObjFiles α}

/-- The two materials are given the same: type and the four parameters that are read. -/
structure EqualMaterials (a : Args α) : Prop where
  type : a.matTypes 0 = 0 ∨ a.matTypes 0 = 1 ∨ a.matTypes 0 = 2
  types : a.matTypes 1 = a.matTypes 0
  params : ∀ k, k < 4 → a.params (10 + k) = a.params k

/-- The arguments with another kind of microstructure and another width (or radius). -/
def withMicro (a : Args α) (kind : Int) (width : α) : Args α :=
  { a with microType := kind, microParams := fun i => if i = 3 then width else a.microParams i }

/-- Two states agree in everything but the microstructure and the contents of the VTU files, which show it. -/
def SameButMicro (s s' : ObjFiles α) : Prop :=
  ∃ (kind : Int) (width : α) (et : Buf Int) (v : Int → Int → Option (List (Tok α))),
    s' = { obj := { s.obj with cfg := { s.obj.cfg with microType := kind, width := width, elemType := et } }
           files := { s.files with vtu := v } }

/-- **C112**: let the two materials be equal.  Then the kind of microstructure and the width do not matter: every
sequence of calls that returns does so for any other choice, with the same state up to the microstructure itself
and the VTU files, and every further call returns the same. -/
theorem C112 (ha : a.Ok) (he : EqualMaterials a) {kind : Int} (hk : kind = 0 ∨ kind = 1) (width : α)
    (hs : Reach env a j calls s) :
    ∃ s', Reach env (withMicro a kind width) j calls s' ∧ SameButMicro s s' ∧
      ∀ k r, step env s k = .ok r → ∃ r', step env s' k = .ok r' ∧ r'.ret = r.ret ∧
        SameButMicro r.state r'.state := by
  have hm : s.obj.cfg.mats 1 = s.obj.cfg.mats 0 := by
    obtain ⟨et, ct, e⟩ := (reach_built ha hs).1.eq
    rw [e]
    show mkMaterial (fun k => a.params (1 * 10 + k)) (a.matTypes 1) (j.mats 1)
      = mkMaterial (fun k => a.params (0 * 10 + k)) (a.matTypes 0) (j.mats 0)
    have h0 := he.params 0 (by omega)
    have h1 := he.params 1 (by omega)
    have h2 := he.params 2 (by omega)
    have h3 := he.params 3 (by omega)
    rw [he.types]
    rcases he.type with h | h | h <;>
      simp only [mkMaterial, h, Nat.one_mul, Nat.zero_mul, Nat.zero_add, h0, h1, h2, h3] <;> simp
  obtain ⟨et, v, hP, h1⟩ := reach_remicro ha hk width hm hs
  refine ⟨_, h1, ⟨kind, width, et, v, rfl⟩, fun k r hr => ?_⟩
  obtain ⟨v', h2⟩ := step_remicro (wd := width) hP v hr
  exact ⟨_, h2, rfl, ⟨kind, width, et, v', rfl⟩⟩

/-- What `get_macro_stress` reads is the same. -/
theorem C112_gauss (ha : a.Ok) (he : EqualMaterials a) {kind : Int} (hk : kind = 0 ∨ kind = 1) (width : α)
    (hs : Reach env a j calls s) :
    ∃ s', Reach env (withMicro a kind width) j calls s' ∧ s'.obj.gauss = s.obj.gauss ∧
      s'.obj.cfg.ctanLin = s.obj.cfg.ctanLin ∧ s'.files.materials = s.files.materials ∧
      s'.files.convergence = s.files.convergence ∧ s'.files.epsSigCtan = s.files.epsSigCtan ∧
      s'.files.intVarsN = s.files.intVarsN := by
  obtain ⟨s', h1, ⟨_, _, _, _, rfl⟩, -⟩ := C112 ha he hk width hs
  exact ⟨_, h1, rfl, rfl, rfl, rfl, rfl, rfl⟩

end

/-- A layered cell with equal materials, and a cell with an inclusion of radius 2. -/
example : ∃ s s', Reach exEnv exArgsU exJunk exCalls s ∧ Reach exEnv (withMicro exArgsU 0 2) exJunk exCalls s' ∧
    s'.obj.gauss = s.obj.gauss := by
  obtain ⟨s, hs⟩ := reach_exists exEnv_quick exArgsU_ok exJunk exCalls
  obtain ⟨s', hs', e, -⟩ := C112_gauss exArgsU_ok
    ⟨Or.inl rfl, rfl, fun k hk => by simp only [exArgsU, Nat.add_mod_left]⟩ (Or.inl rfl) 2 hs
  exact ⟨s, s', hs, hs', e⟩

end Verif.Props
