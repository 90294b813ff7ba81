import Verif.Lemmas.Built

/-!
# C113: which of its arguments the constructor uses
-/

namespace Verif.Props
open Verif

section
variable {α : Type} [Scalar α] {env : Env α} {a a' : Args α} {j : Junk α}

/-- Two lists of arguments agree where they are used: four parameters for each of the two materials, and
sizes and lengths as far as the dimension goes. -/
structure AgreeWhereUsed (a a' : Args α) : Prop where
  dim : a'.dim = a.dim
  micro : a'.microType = a.microType
  sizes : ∀ d, d < a.dim → a'.size d = a.size d
  lengths : ∀ d, d < a.dim → a'.microParams d = a.microParams d
  width : a'.microParams 3 = a.microParams 3
  types : ∀ m, m < 2 → a'.matTypes m = a.matTypes m
  params : ∀ m k, m < 2 → k < 4 → a'.params (m * 10 + k) = a.params (m * 10 + k)

theorem mkCfg_agree (hd : a.dim = 2 ∨ a.dim = 3) (h : AgreeWhereUsed a a') (et : Buf Int) :
    mkCfg a' j et = mkCfg a j et := by
  have hm : (fun i => if i < 2 then mkMaterial (fun k => a'.params (i * 10 + k)) (a'.matTypes i) (j.mats i)
      else j.mats i)
      = (fun i => if i < 2 then mkMaterial (fun k => a.params (i * 10 + k)) (a.matTypes i) (j.mats i)
      else j.mats i) := by
    funext i
    by_cases hi : i < 2
    · rw [if_pos hi, if_pos hi, h.types i hi]
      simp only [mkMaterial]
      rw [h.params i 0 hi (by omega), h.params i 1 hi (by omega), h.params i 2 hi (by omega),
        h.params i 3 hi (by omega)]
    · rw [if_neg hi, if_neg hi]
  have s0 := h.sizes 0 (by omega)
  have s1 := h.sizes 1 (by omega)
  have l0 := h.lengths 0 (by omega)
  have l1 := h.lengths 1 (by omega)
  have z : (if a.dim = 2 then 1 else a'.size 2) = (if a.dim = 2 then 1 else a.size 2) := by
    by_cases h2 : a.dim = 2
    · rw [if_pos h2, if_pos h2]
    · rw [if_neg h2, if_neg h2, h.sizes 2 (by omega)]
  have lz : (if a.dim = 2 then 0 else a'.microParams 2) = (if a.dim = 2 then 0 else a.microParams 2) := by
    by_cases h2 : a.dim = 2
    · rw [if_pos h2, if_pos h2]
    · rw [if_neg h2, if_neg h2, h.lengths 2 (by omega)]
  unfold mkCfg
  simp only [hm, z, lz, s0, s1, l0, l1, h.dim, h.micro, h.width]

/-- **C113**: the constructor does the same for arguments that agree where they are used: it fails alike, or it
builds the same object and writes the same files. -/
theorem C113 (h : AgreeWhereUsed a a') (f : Files α) : constructF env a' j f = constructF env a j f := by
  unfold constructF
  have : construct env a' j = construct env a j := by
    unfold construct
    by_cases hd : a.dim = 2 ∨ a.dim = 3
    · rw [h.dim, h.micro]
      simp only [mkCfg_agree hd h]
    · rw [if_pos (show ¬ (a'.dim = 2 ∨ a'.dim = 3) by rw [h.dim]; exact hd), if_pos hd]
  rw [this]

/-- Hence the same states are reached. -/
theorem C113_reach (h : AgreeWhereUsed a a') {calls : List (Call α)} {s : ObjFiles α} :
    Reach env a' j calls s ↔ Reach env a j calls s := by
  unfold Reach
  simp only [C113 h]

end

/-- Two dimensions, with nonsense in all that is not used: a third size of zero, a third length of −1, parameters
beyond the fourth, types beyond the second. -/
noncomputable def nonsense : Args ℝ :=
  { exArgs2 with
    size := fun d => if d < 2 then exArgs2.size d else 0
    microParams := fun d => if d = 2 then -1 else exArgs2.microParams d
    matTypes := fun m => if m < 2 then exArgs2.matTypes m else 99
    params := fun i => if i % 10 < 4 then exArgs2.params i else -7 }

theorem nonsense_agree : AgreeWhereUsed exArgs2 nonsense where
  dim := rfl
  micro := rfl
  sizes := fun _ hd => if_pos hd
  lengths := fun d hd => if_neg (by have : d < 2 := hd; omega)
  width := by
    show (if (3 : Nat) = 2 then (-1 : ℝ) else exArgs2.microParams 3) = _
    exact if_neg (by omega)
  types := fun _ hm => if_pos hm
  params := fun _ _ _ _ => if_pos (by omega)

example : ∃ s, Reach exEnv nonsense exJunk exCalls s ∧ Reach exEnv exArgs2 exJunk exCalls s := by
  obtain ⟨s, hs⟩ := reach_exists exEnv_quick exArgs2_ok exJunk exCalls
  exact ⟨s, (C113_reach nonsense_agree).mpr hs, hs⟩

end Verif.Props
