import Verif.Lemmas.Unused
import Verif.Props.Micro
import Verif.Props.State

/-!
# C110, C111: parameters of the materials that do not matter

The caller hands over ten parameters per material (/repo/include/micro.hpp:34, /repo/src/micro.cpp:89-112).
Which of them have an effect depends on the type of the material and on the dimension: the first two always, the
yield stress and the hardening modulus for plastic materials in three dimensions, the other six never.  In two
dimensions the type itself has no effect either, and type 2 (damage) is type 0 (linear).  Nothing of a material
that no element has matters (C111).
-/

namespace Verif.Props
open Verif

section
variable {α : Type} [Scalar α] {env : Env α} {a : Args α} {j : Junk α} {calls : List (Call α)} {s : ObjFiles α}

/-- Types `ty` and parameters `p` agree with those of `a` in what has an effect. -/
structure SameUse (a : Args α) (ty : Nat → Int) (p : Nat → α) : Prop where
  E : ∀ m, m < 2 → p (m * 10) = a.params (m * 10)
  nu : ∀ m, m < 2 → p (m * 10 + 1) = a.params (m * 10 + 1)
  law : a.dim = 3 → ∀ m, m < 2 →
    a.matTypes m = 1 ∧ ty m = 1 ∧ p (m * 10 + 2) = a.params (m * 10 + 2) ∧ p (m * 10 + 3) = a.params (m * 10 + 3) ∨
    (a.matTypes m = 0 ∨ a.matTypes m = 2) ∧ (ty m = 0 ∨ ty m = 2)

/-- Two states agree in everything but the list of materials and the file that shows it. -/
def SameButMaterials (s s' : ObjFiles α) : Prop :=
  ∃ (ma : Nat → Material α) (t : List (Tok α)),
    s' = { obj := { s.obj with cfg := { s.obj.cfg with mats := ma } }, files := { s.files with materials := t } }

/-- Every call returns the same from both states, or fails in the same way. -/
def SameCalls (env : Env α) (s s' : ObjFiles α) : Prop :=
  ∀ k, (∀ r, step env s k = .ok r → ∃ r', step env s' k = .ok r' ∧ r'.ret = r.ret ∧
      SameButMaterials r.state r'.state) ∧
    ∀ e, step env s k = .error e → step env s' k = .error e

theorem same_of_alike {ty : Nat → Int} {p : Nat → α}
    (hA : s.obj.cfg.Alike (Args.mats { a with matTypes := ty, params := p } j)) (hs : Reach env a j calls s) :
    ∃ s', Reach env { a with matTypes := ty, params := p } j calls s' ∧ SameButMaterials s s' ∧
      SameCalls env s s' := by
  obtain ⟨t, ht⟩ := reach_remat hA hs
  refine ⟨_, ht, ⟨_, t, rfl⟩, fun k => ?_⟩
  refine ⟨fun r hr => ?_, fun e he => by rw [step_remat hA, he]; rfl⟩
  exact ⟨{ state := r.state.remat _ t, ret := r.ret }, by rw [step_remat hA, hr]; rfl, rfl, ⟨_, t, rfl⟩⟩

theorem plasticStep_congr {m m' : Material α} (hk : m'.k = m.k) (hmu : m'.mu = m.mu) (hS : m'.Sy = m.Sy)
    (hK : m'.Ka = m.Ka) : plasticStep m' = plasticStep m := by
  have e1 : sigTrial m' = sigTrial m := by funext eps epsP i; simp only [sigTrial, hmu]
  have e2 : fTrial m' = fTrial m := by funext eps epsP al; simp only [fTrial, e1, hS, hK]
  have e3 : plasticStress m' = plasticStress m := by
    funext eps sig dl normal i; simp only [plasticStress, hk, hmu]
  funext eps epsP al
  simp only [plasticStep, e1, e2, e3, hmu, hK]

/-- **C110**: let the materials be given with other types and parameters that agree in what has an effect.  Then
every sequence of calls that returns leads to the same state, up to the list of materials and the file
`micropp_materials.dat`, and every further call returns the same, or fails in
the same way. -/
theorem C110 (ha : a.Ok) {ty : Nat → Int} {p : Nat → α} (hu : SameUse a ty p) (hs : Reach env a j calls s) :
    ∃ s', Reach env { a with matTypes := ty, params := p } j calls s' ∧ SameButMaterials s s' ∧
      SameCalls env s s' := by
  have h : ∀ i, i < 2 → (a.mats j i).Alike a.dim (Args.mats { a with matTypes := ty, params := p } j i) := by
    intro i hi
    unfold Args.mats
    rw [if_pos hi, if_pos hi]
    have e0 := hu.E i hi
    have e1 := hu.nu i hi
    have key : ∀ hd : a.dim = 3,
        (mkMaterial (fun k => p (i * 10 + k)) (ty i) (j.mats i)).plasticity
          = (mkMaterial (fun k => a.params (i * 10 + k)) (a.matTypes i) (j.mats i)).plasticity ∧
        ((mkMaterial (fun k => a.params (i * 10 + k)) (a.matTypes i) (j.mats i)).plasticity = true →
          p (i * 10 + 2) = a.params (i * 10 + 2) ∧ p (i * 10 + 3) = a.params (i * 10 + 3)) := by
      intro hd
      rcases hu.law hd i hi with ⟨t1, t2, h1, h2⟩ | ⟨t1 | t1, t2 | t2⟩
      · exact ⟨by simp [mkMaterial, t1, t2], fun _ => ⟨h1, h2⟩⟩
      all_goals exact ⟨by simp [mkMaterial, t1, t2], fun hp => by simp [mkMaterial, t1] at hp⟩
    refine ⟨e0, e1, ?_, ?_, ?_, fun hd => (key hd).1, fun hd hp => ?_⟩
    · simp only [mkMaterial, Nat.add_zero]; rw [e0, e1]
    · simp only [mkMaterial, Nat.add_zero]; rw [e0, e1]
    · simp only [mkMaterial, Nat.add_zero]; rw [e0, e1]
    · obtain ⟨e2, e3⟩ := (key hd).2 hp
      exact plasticStep_congr
        (by simp only [mkMaterial, Nat.add_zero]; rw [e0, e1]) (by simp only [mkMaterial, Nat.add_zero]; rw [e0, e1])
        e2 e3
  refine same_of_alike ?_ hs
  obtain ⟨et, ct, e⟩ := (reach_built ha hs).1.eq
  rw [e]
  exact fun _ t _ => h _ (by split <;> omega)

/-- No element of the cell has material number `m`: an element of type 0 has the first material, any other the
second. -/
def Absent (c : Cfg α) (m : Nat) : Prop := ∀ e, e < c.nelem → m ≠ if c.elemType.val e = 0 then 0 else 1

/-- **C111**: let no element have material `m`, and let the arguments be given with any other type and any other
parameters for this material.  Then every sequence of calls leads to the same state, up to the list of materials
and the file that shows it, and every further call returns the same, or fails in the same way. -/
theorem C111 (ha : a.Ok) {m : Nat} (hs : Reach env a j calls s) (hm : Absent s.obj.cfg m)
    {ty : Nat → Int} {p : Nat → α} (hty : ∀ i, i < 2 → i ≠ m → ty i = a.matTypes i)
    (hp : ∀ i k, i < 2 → i ≠ m → k < 10 → p (i * 10 + k) = a.params (i * 10 + k)) :
    ∃ s', Reach env { a with matTypes := ty, params := p } j calls s' ∧ SameButMaterials s s' ∧
      SameCalls env s s' := by
  refine same_of_alike (fun e t ht => ?_) hs
  obtain ⟨hb, -⟩ := reach_built ha hs
  have he : e < s.obj.cfg.nelem ∧ t = s.obj.cfg.elemType.val e := by
    unfold Buf.read at ht
    split at ht
    · rename_i h
      rw [hb.ok.elem] at h
      cases ht
      exact ⟨h, rfl⟩
    · cases ht
  have hne := hm e he.1
  rw [← he.2] at hne
  generalize hi : (if t = 0 then 0 else 1) = i at hne ⊢
  have hi2 : i < 2 := by subst hi; split <;> omega
  obtain ⟨et, ct, e⟩ := hb.eq
  have hq : Args.mats { a with matTypes := ty, params := p } j i = s.obj.cfg.mats i := by
    rw [e]
    show Args.mats { a with matTypes := ty, params := p } j i = a.mats j i
    unfold Args.mats
    rw [if_pos hi2, if_pos hi2]
    show mkMaterial (fun k => p (i * 10 + k)) (ty i) (j.mats i) = _
    rw [hty i hi2 (Ne.symm hne)]
    simp only [mkMaterial]
    rw [hp i 0 hi2 (Ne.symm hne) (by omega), hp i 1 hi2 (Ne.symm hne) (by omega),
      hp i 2 hi2 (Ne.symm hne) (by omega), hp i 3 hi2 (Ne.symm hne) (by omega)]
  rw [hq]
  exact ⟨rfl, rfl, rfl, rfl, rfl, fun _ => rfl, fun _ _ => rfl⟩

end

/-- Three dimensions: an elastic cell with other values for the yield stress and what follows, and with type 2. -/
example : ∃ s s', Reach exEnv exArgs3 exJunk exCalls s ∧
    Reach exEnv { exArgs3 with
      matTypes := fun _ => 2, params := fun i => if i % 10 < 2 then exArgs3.params i else -7 } exJunk exCalls s' ∧
    s'.obj.gauss = s.obj.gauss := by
  obtain ⟨s, hs⟩ := reach_exists exEnv_quick exArgs3_ok exJunk exCalls
  obtain ⟨s', hs', ⟨ma, t, e⟩, -⟩ := C110 exArgs3_ok (ty := fun _ => 2)
    (p := fun i => if i % 10 < 2 then exArgs3.params i else -7)
    ⟨fun m hm => if_pos (by omega), fun m hm => if_pos (by omega),
      fun _ m hm => Or.inr ⟨Or.inl rfl, Or.inr rfl⟩⟩ hs
  exact ⟨s, s', hs, hs', by rw [e]⟩

/-- Three dimensions, plastic: only the parameters from the fifth on are free. -/
example : SameUse exArgsP (fun _ => 1) (fun i => if i % 10 < 4 then exArgsP.params i else -7) :=
  ⟨fun m hm => if_pos (by omega), fun m hm => if_pos (by omega),
    fun _ m hm => Or.inl ⟨rfl, rfl, if_pos (by omega), if_pos (by omega)⟩⟩

/-- Two dimensions: a cell declared plastic, with a yield stress of zero, is the elastic cell. -/
example : ∃ s s', Reach exEnv exArgs2 exJunk exCalls s ∧
    Reach exEnv { exArgs2 with
      matTypes := fun _ => 1, params := fun i => if i % 10 < 2 then exArgs2.params i else 0 } exJunk exCalls s' ∧
    s'.obj.gauss = s.obj.gauss := by
  obtain ⟨s, hs⟩ := reach_exists exEnv_quick exArgs2_ok exJunk exCalls
  obtain ⟨s', hs', ⟨ma, t, e⟩, -⟩ := C110 exArgs2_ok (ty := fun _ => 1)
    (p := fun i => if i % 10 < 2 then exArgs2.params i else 0)
    ⟨fun m hm => if_pos (by omega), fun m hm => if_pos (by omega), fun h => absurd h (by simp [exArgs2])⟩ hs
  exact ⟨s, s', hs, hs', by rw [e]⟩

/-- Every number below the number of elements is the number of an element. -/
theorem elem_of_number {a : Args ℝ} (ha : a.Ok) {j : Junk ℝ} {c : Cfg ℝ} (hb : BuiltFrom a j c) {e : Nat}
    (he : e < c.nelem) : ∃ ex ey ez, IsElem a ex ey ez ∧ e = gloElem3D c.nx c.ny ex ey ez := by
  obtain ⟨et, ct, hc⟩ := hb.eq
  have hx := ha.nx
  have hy := ha.ny
  subst hc
  have hx0 : 0 < a.size 0 - 1 := by omega
  have hy0 : 0 < a.size 1 - 1 := by omega
  have key : e = gloElem3D (a.size 0) (a.size 1) (e % (a.size 0 - 1)) (e / (a.size 0 - 1) % (a.size 1 - 1))
      (e / (a.size 0 - 1) / (a.size 1 - 1)) := by
    unfold gloElem3D
    have h1 := Nat.div_add_mod e (a.size 0 - 1)
    have h2 := Nat.div_add_mod (e / (a.size 0 - 1)) (a.size 1 - 1)
    have h3 : e / (a.size 0 - 1) / (a.size 1 - 1) * (a.size 0 - 1) * (a.size 1 - 1)
        + e / (a.size 0 - 1) % (a.size 1 - 1) * (a.size 0 - 1)
        = (a.size 0 - 1) * ((a.size 1 - 1) * (e / (a.size 0 - 1) / (a.size 1 - 1))
          + e / (a.size 0 - 1) % (a.size 1 - 1)) := by ring
    rw [h3, h2, h1]
  have l1 := Nat.mod_lt e hx0
  have l2 := Nat.mod_lt (e / (a.size 0 - 1)) hy0
  refine ⟨_, _, _, ⟨by omega, by omega, fun hd => ?_, fun hd => ?_⟩, key⟩
  · have h : e < (a.size 0 - 1) * (a.size 1 - 1) := by
      have h := he
      simp only [Cfg.nelem, mkCfg, hd] at h
      simpa using h
    rw [Nat.div_div_eq_div_mul]
    exact Nat.div_eq_of_lt h
  · have h : e < (a.size 0 - 1) * (a.size 1 - 1) * (a.size 2 - 1) := by
      have h := he
      simp only [Cfg.nelem, mkCfg, hd] at h
      simpa using h
    rw [Nat.div_div_eq_div_mul]
    exact Nat.add_lt_of_lt_sub (Nat.div_lt_of_lt_mul h)

/-- **C111**, layered cells: if no centre of an element lies below the width, the second material has no effect. -/
theorem C111_layered {env : Env ℝ} {a : Args ℝ} {j : Junk ℝ} {calls : List (Call ℝ)} {s : ObjFiles ℝ} (ha : a.Ok)
    (ht : a.microType = 1) (hw : ∀ ey, ey + 1 < a.size 1 → a.microParams 3 ≤ centre (a.microParams 1) (a.size 1) ey)
    (hs : Reach env a j calls s) {ty : Nat → Int} {p : Nat → ℝ} (hty : ty 0 = a.matTypes 0)
    (hp : ∀ k, k < 10 → p k = a.params k) :
    ∃ s', Reach env { a with matTypes := ty, params := p } j calls s' ∧ SameButMaterials s s' ∧
      SameCalls env s s' := by
  have hm : Absent s.obj.cfg 1 := by
    intro e he
    obtain ⟨hb, -⟩ := reach_built ha hs
    obtain ⟨ex, ey, ez, h1, h2⟩ := elem_of_number ha hb he
    have h3 := C48_layered ha ht hs h1
    rw [if_neg (not_lt.mpr (hw ey h1.2.1))] at h3
    unfold storedType at h3
    rw [h2, if_pos h3]
    decide
  refine C111 ha hs hm (fun i h1 h2 => ?_) (fun i k h1 h2 hk => ?_)
  · obtain rfl : i = 0 := by omega
    exact hty
  · obtain rfl : i = 0 := by omega
    rw [Nat.zero_mul, Nat.zero_add]
    exact hp k hk

/-- The layered cell with a layer of width zero. -/
noncomputable def noLayer : Args ℝ :=
  { exArgs3 with microParams := fun i => if i = 3 then 0 else exArgs3.microParams i }

theorem noLayer_ok : noLayer.Ok := by
  refine ⟨Or.inr rfl, Or.inr rfl, ?_, ?_, fun _ => ?_⟩ <;> simp [noLayer, exArgs3]

/-- Such a cell with a second material that is plastic with a negative Young's modulus. -/
example : ∃ s s', Reach exEnv noLayer exJunk exCalls s ∧
    Reach exEnv { noLayer with
      matTypes := fun i => if i = 0 then 0 else 1, params := fun i => if i < 10 then exArgs3.params i else -7 }
      exJunk exCalls s' ∧ s'.obj.gauss = s.obj.gauss := by
  obtain ⟨s, hs⟩ := reach_exists exEnv_quick noLayer_ok exJunk exCalls
  obtain ⟨s', hs', ⟨ma, t, e⟩, -⟩ := C111_layered noLayer_ok rfl
    (fun ey _ => by
      have : (0 : ℝ) ≤ ey := Nat.cast_nonneg ey
      simp only [noLayer, exArgs3, centre]
      norm_num
      linarith)
    hs (ty := fun i => if i = 0 then 0 else 1) (p := fun i => if i < 10 then exArgs3.params i else -7)
    rfl (fun k hk => if_pos hk)
  exact ⟨s, s', hs, hs', by rw [e]⟩

open Classical in
/-- The material an element is meant to have: the second one below the width of the layer, or inside of the
inclusion. -/
noncomputable def materialAt (a : Args ℝ) (ex ey ez : Nat) : Nat :=
  if a.microType = 1 ∧ centre (a.microParams 1) (a.size 1) ey < a.microParams 3 ∨
    a.microType = 0 ∧ offCentre a ex ey ez < |a.microParams 3| then 1 else 0

/-- **C111** in terms of the geometry, for layers and inclusions and for either material. -/
theorem C111_geometry {env : Env ℝ} {a : Args ℝ} {j : Junk ℝ} {calls : List (Call ℝ)} {s : ObjFiles ℝ} (ha : a.Ok)
    {m : Nat} (hg : ∀ ex ey ez, IsElem a ex ey ez → materialAt a ex ey ez ≠ m) (hs : Reach env a j calls s)
    {ty : Nat → Int} {p : Nat → ℝ} (hty : ∀ i, i < 2 → i ≠ m → ty i = a.matTypes i)
    (hp : ∀ i k, i < 2 → i ≠ m → k < 10 → p (i * 10 + k) = a.params (i * 10 + k)) :
    ∃ s', Reach env { a with matTypes := ty, params := p } j calls s' ∧ SameButMaterials s s' ∧
      SameCalls env s s' := by
  refine C111 ha hs (fun e he => ?_) hty hp
  obtain ⟨hb, -⟩ := reach_built ha hs
  obtain ⟨ex, ey, ez, h1, h2⟩ := elem_of_number ha hb he
  refine fun hm => hg ex ey ez h1 ?_
  rw [hm, h2]
  show _ = if storedType s.obj.cfg ex ey ez = 0 then 0 else 1
  unfold materialAt
  rcases ha.micro with ht | ht
  · rw [C48_inclusion ha ht hs h1]
    by_cases hc : offCentre a ex ey ez < |a.microParams 3| <;> simp [ht, hc]
  · rw [C48_layered ha ht hs h1]
    by_cases hc : centre (a.microParams 1) (a.size 1) ey < a.microParams 3 <;> simp [ht, hc]

/-- The layered cell with a layer that covers it: here the first material does not matter. -/
noncomputable def allLayer : Args ℝ :=
  { exArgs3 with microParams := fun i => if i = 3 then 2 else exArgs3.microParams i }

theorem allLayer_ok : allLayer.Ok := by
  refine ⟨Or.inr rfl, Or.inr rfl, ?_, ?_, fun _ => ?_⟩ <;> simp [allLayer, exArgs3]

example : ∃ s s', Reach exEnv allLayer exJunk exCalls s ∧
    Reach exEnv { allLayer with
      matTypes := fun i => if i = 0 then 1 else 0, params := fun i => if i < 10 then -7 else exArgs3.params i }
      exJunk exCalls s' ∧ s'.obj.gauss = s.obj.gauss := by
  obtain ⟨s, hs⟩ := reach_exists exEnv_quick allLayer_ok exJunk exCalls
  obtain ⟨s', hs', ⟨ma, t, e⟩, -⟩ := C111_geometry allLayer_ok (m := 0)
    (fun ex ey ez h => by
      have hy : ey + 1 < 3 := h.2.1
      have : (ey : ℝ) ≤ 1 := by exact_mod_cast (by omega : ey ≤ 1)
      have hlt : centre (allLayer.microParams 1) (allLayer.size 1) ey < allLayer.microParams 3 := by
        simp only [allLayer, exArgs3, centre]
        norm_num
        linarith
      unfold materialAt
      rw [if_pos (Or.inl ⟨rfl, hlt⟩)]
      decide)
    hs (ty := fun i => if i = 0 then 1 else 0) (p := fun i => if i < 10 then -7 else exArgs3.params i)
    (fun i _ h2 => if_neg h2) (fun i k _ h2 _ => if_neg (by omega))
  exact ⟨s, s', hs, hs', by rw [e]⟩

end Verif.Props
