import Verif.Spec.Client
import Verif.Props.State
import Verif.Lemmas.Built
import Verif.Lemmas.Vtu

/-!
# The programs in /repo/test: lemmas
-/

namespace Verif
open Spec

variable {α : Type} [Scalar α]

/-! ## Arrays -/

theorem Buf.readI_at {b : Buf α} {d : Nat} (h : d < b.size) : b.readI (d : Int) = .ok (b.val d) := by
  unfold Buf.readI Buf.read
  rw [if_pos (Int.natCast_nonneg d), Int.toNat_natCast, if_pos h]

theorem Buf.writeI_ok {b : Buf α} {d : Nat} (h : d < b.size) (v : α) :
    b.writeI (d : Int) v = .ok ⟨b.size, fun k => if k = d then v else b.val k⟩ := by
  unfold Buf.writeI Buf.write
  rw [if_pos (Int.natCast_nonneg d), Int.toNat_natCast, if_pos h]

theorem Buf.readI_oob {b : Buf α} {d : Int} (h : d < 0 ∨ (b.size : Int) ≤ d) :
    b.readI d = .error .oob := by
  unfold Buf.readI Buf.read
  split
  · rw [if_neg (by omega)]
  · rfl

theorem reads_ok {b : Buf α} {n : Nat} (h : n ≤ b.size) :
    loop n (fun i (_ : Unit) => do
      let _ ← b.read i
      pure ()) () = .ok () := by
  obtain ⟨s, h1, -⟩ := loop_inv (n := n) (s := ()) (f := fun i (_ : Unit) => do
      let _ ← b.read i
      pure ()) (fun _ _ => True) trivial fun i s hi _ => by
    refine ⟨(), ?_, trivial⟩
    unfold Buf.read
    rw [if_pos (by omega)]
    rfl
  exact h1

theorem writes_ok {b : Buf α} {n : Nat} (h : n ≤ b.size) (f : Nat → α) :
    ∃ b', loop n (fun i b => b.write i (f i)) b = .ok b' ∧ b'.size = b.size ∧
      ∀ k, b'.val k = if k < n then f k else b.val k := by
  obtain ⟨s, h1, h2, h3⟩ := loop_inv (n := n) (s := b) (f := fun i b => b.write i (f i))
    (fun m b' => b'.size = b.size ∧ ∀ k, b'.val k = if k < m then f k else b.val k)
    ⟨rfl, fun k => by simp⟩ fun i s hi ⟨e1, e2⟩ => by
      refine ⟨⟨s.size, fun k => if k = i then f i else s.val k⟩, ?_, e1, fun k => ?_⟩
      · unfold Buf.write; rw [if_pos (by omega)]
      · simp only [e2]
        by_cases hk : k = i
        · subst hk; simp
        · rw [if_neg hk]
          by_cases hk2 : k < i
          · rw [if_pos hk2, if_pos (by omega)]
          · rw [if_neg hk2, if_neg (by omega)]
  exact ⟨s, h1, h2, h3⟩

theorem printRow_ok {b : Buf α} {n : Nat} (h : n ≤ b.size) :
    printRow n b = .ok ((List.range n).map fun i => .num (b.val i)) := by
  unfold printRow
  rw [emit_eq (g := fun i => [.num (b.val i)])]
  · congr 1
    unfold emitP
    generalize List.range n = l
    induction l with
    | nil => rfl
    | cons a l ih => rw [List.flatMap_cons, ih]; rfl
  · intro i hi
    unfold Buf.read
    rw [if_pos (by omega)]
    rfl

theorem ctorReads_ok {dim : Nat} {a : CtorArrays α} (h1 : 5 ≤ a.microParams.size)
    (h2 : 14 ≤ a.params.size) (h3 : 2 ≤ a.matTypes.size) (h4 : 3 ≤ a.size.size) :
    ctorReads dim a = .ok () := by
  have hm : ∀ i, i < 5 → a.microParams.read i = .ok (a.microParams.val i) := fun i hi => by
    unfold Buf.read; rw [if_pos (by omega)]
  have hp : ∀ i, i < 14 → a.params.read i = .ok (a.params.val i) := fun i hi => by
    unfold Buf.read; rw [if_pos (by omega)]
  have ht : ∀ i, i < 2 → a.matTypes.read i = .ok (a.matTypes.val i) := fun i hi => by
    unfold Buf.read; rw [if_pos (by omega)]
  have hs : ∀ i, i < 3 → a.size.read i = .ok (a.size.val i) := fun i hi => by
    unfold Buf.read; rw [if_pos (by omega)]
  have hz : ifRun (dim ≠ 2) (fun _ => do
      let _ ← a.microParams.read 2
      pure ()) () = .ok () := by
    unfold ifRun
    split
    · rw [hm 2 (by omega)]; rfl
    · rfl
  have hz' : ifRun (dim ≠ 2) (fun _ => do
      let _ ← a.size.read 2
      pure ()) () = .ok () := by
    unfold ifRun
    split
    · rw [hs 2 (by omega)]; rfl
    · rfl
  unfold ctorReads
  rw [hm 0 (by omega), M_bind_ok', hm 1 (by omega), M_bind_ok', hz, M_bind_ok', hm 3 (by omega),
    M_bind_ok', hs 0 (by omega), M_bind_ok', hs 1 (by omega), M_bind_ok', hz', M_bind_ok',
    reads_ok h1, M_bind_ok']
  obtain ⟨s, e, -⟩ := loop_inv (n := 2) (s := ()) (f := fun i (_ : Unit) => do
    let _ ← a.params.read (i * 10 + 0)
    let _ ← a.params.read (i * 10 + 1)
    let _ ← a.params.read (i * 10 + 2)
    let _ ← a.params.read (i * 10 + 3)
    let _ ← a.matTypes.read i
    pure ()) (fun _ _ => True) trivial fun i s hi _ => by
      refine ⟨(), ?_, trivial⟩
      rw [hp _ (by omega), M_bind_ok', hp _ (by omega), M_bind_ok', hp _ (by omega), M_bind_ok',
        hp _ (by omega), M_bind_ok', ht _ hi, M_bind_ok']
      rfl
  exact e

/-! ## Calls -/

theorem Sane.loopIx {σ : Type} {env : Env α} {P : Nat → σ → Prop} {n : Nat} {f : Nat → σ → M σ}
    {s : σ} (h0 : P 0 s) (h : ∀ i s, i < n → P i s → Sane env (P (i + 1)) (f i s)) :
    Sane env (P n) (Verif.loop n f s) := by
  induction n with
  | zero => exact Sane.ok h0
  | succ n ih =>
    rw [loop_succ]
    exact Sane.bind (ih fun i s hi => h i s (by omega)) fun x hx => h n x (by omega) hx

/-- A state reached from `s0`. -/
structure At (env : Env α) (s0 : ObjFiles α) (calls : List (Call α)) (s : ObjFiles α) : Prop where
  ok : s.obj.Ok
  run : run env calls s0 = .ok s

theorem cCall_at {env : Env α} {s0 s : ObjFiles α} {calls : List (Call α)}
    (h : At env s0 calls s) (k : Call α) : Sane env (At env s0 (calls ++ [k])) (cCall env s k) := by
  have hk := step_sane (env := env) h.ok k
  unfold cCall
  rcases hk with ⟨x, hx, ho⟩ | ⟨hx, hq⟩ | ⟨hx, ht⟩
  · rw [hx]
    refine Sane.ok ⟨ho, ?_⟩
    rw [run_snoc]
    exact ⟨s, x, h.run, hx, rfl⟩
  · rw [hx]; exact Or.inr (Or.inl ⟨rfl, hq⟩)
  · rw [hx]; exact Or.inr (Or.inr ⟨rfl, ht⟩)

theorem nvoi_le (c : Cfg α) : c.nvoi ≤ 6 := by unfold Cfg.nvoi; split <;> omega

theorem cSetStrain_eq {env : Env α} {s : ObjFiles α} {id : Int} {eps : Buf α} (he : 6 ≤ eps.size) :
    cSetStrain env s id eps = cCall env s (.setStrain id eps.val) := by
  unfold cSetStrain cCall
  rw [reads_ok (le_trans (nvoi_le _) he), M_bind_ok']

theorem setIds_append (l m : List (Call α)) :
    Props.setIds (l ++ m) = Props.setIds l ++ Props.setIds m := by
  simp [Props.setIds]

/-- The getter fetches the stress of a registered Gauss point. -/
theorem cGetStress_ok {env : Env α} {s0 s : ObjFiles α} {calls : List (Call α)} (h0 : Props.Fresh s0)
    (h : At env s0 calls s) {id : Int} (hid : id ∈ Props.setIds calls) {sig : Buf α}
    (hs : 6 ≤ sig.size) :
    ∃ g ∈ s.obj.gauss, g.id = id ∧ ∃ arr, cGetStress env s id sig = .ok ⟨s, arr⟩ ∧
      arr.size = sig.size ∧ ∀ i, i < s0.obj.cfg.nvoi → arr.val i = g.macroStress i := by
  obtain ⟨h1, h2, -⟩ := Props.C39_map env calls s0 s h0 h.run
  have hm : id ∈ s.obj.gauss.map Gp.id := by rw [h1]; simpa using hid
  obtain ⟨g, hg, hgi⟩ := List.mem_map.mp hm
  refine ⟨g, hg, hgi, ?_⟩
  have hf : findGp id s.obj.gauss = some g := by rw [← hgi]; exact Props.findGp_mem h2 hg
  obtain ⟨b', e1, e2, e3⟩ := writes_ok (b := sig) (n := s.obj.cfg.nvoi)
    (le_trans (nvoi_le _) hs) g.macroStress
  refine ⟨b', ?_, e2, fun i hi => ?_⟩
  · unfold cGetStress
    rw [hf]
    simp only
    rw [e1, M_bind_ok']
    have : step env s (.getStress id b'.val)
        = .ok ⟨s, .buf (setFirst s.obj.cfg.nvoi g.macroStress b'.val)⟩ := by
      simp only [step, getMacroStress, hf]; rfl
    rw [this]
    rfl
  · rw [e3, if_pos (by rw [run_cfg h.run]; exact hi)]

/-- The last strain set for a Gauss point is the one it holds. -/
theorem holds_strain {env : Env α} {s0 s : ObjFiles α} {calls : List (Call α)} (h0 : Props.Fresh s0)
    (h : At env s0 calls s) {g : Gp α} (hg : g ∈ s.obj.gauss) {eps : Nat → α}
    (hl : Props.lastStrain g.id calls = some eps) :
    ∀ i, i < s0.obj.cfg.nvoi → g.macroStrain i = eps i := by
  obtain ⟨-, -, h3⟩ := Props.C39_map env calls s0 s h0 h.run
  obtain ⟨e', he, hv⟩ := h3 g hg
  rw [hl] at he
  cases he
  exact hv

/-! ## The load -/

/-- The strain after `n` steps. -/
def loadAfter : Nat → α
  | 0 => 0
  | t + 1 => if Grows t then loadAfter t + 0.01 else loadAfter t - 0.01

theorem ramp_loadAfter : Ramp (fun t => loadAfter (α := α) (t + 1)) :=
  ⟨rfl, fun _ => rfl⟩

theorem loadStep_ok {dir : Nat} (hd : dir < 6) (t : Nat) {eps : Buf α} (he : eps.size = 6)
    (hv : eps.val = uni dir (loadAfter t)) :
    ∃ eps', loadStep t dir eps = .ok eps' ∧ eps'.size = 6 ∧
      eps'.val = uni dir (loadAfter (t + 1)) := by
  unfold loadStep
  rw [Buf.readI_at (by omega), M_bind_ok', Buf.writeI_ok (by omega)]
  refine ⟨_, rfl, he, ?_⟩
  funext k
  simp only [hv, uni, if_true]
  by_cases hk : k = dir
  · rw [if_pos hk, if_pos hk]
    show _ = if Grows t then loadAfter t + 0.01 else loadAfter t - 0.01
    have hg : Grows t ↔ (t < 30 ∨ (80 ≤ t ∧ t < 130) ∨ 250 ≤ t) := Iff.rfl
    by_cases h1 : t < 30
    · rw [if_pos h1, if_pos (hg.mpr (by omega))]
    · by_cases h2 : t < 80
      · rw [if_neg h1, if_pos h2, if_neg (fun h => by have := hg.mp h; omega)]
      · by_cases h3 : t < 130
        · rw [if_neg h1, if_neg h2, if_pos h3, if_pos (hg.mpr (by omega))]
        · by_cases h4 : t < 250
          · rw [if_neg h1, if_neg h2, if_neg h3, if_pos h4,
              if_neg (fun h => by have := hg.mp h; omega)]
          · rw [if_neg h1, if_neg h2, if_neg h3, if_neg h4, if_pos (hg.mpr (by omega))]
  · simp [hk]

theorem ramp_real {e : Nat → ℝ} (h : Ramp e) (t : Nat) : e t = hundredths (t + 1) / 100 := by
  induction t with
  | zero => rw [h.first]; norm_num [hundredths]
  | succ t ih =>
    rw [h.next, ih]
    have key : hundredths (t + 1 + 1)
        = if Grows (t + 1) then hundredths (t + 1) + 1 else hundredths (t + 1) - 1 := by
      unfold hundredths Grows
      push_cast
      split_ifs <;> omega
    rw [key]
    split
    · push_cast; ring
    · push_cast; ring

/-! ## The loops -/

theorem range_flatMap_succ {β γ : Type} (f : β → List γ) (g : Nat → β) (n : Nat) :
    (List.range (n + 1)).flatMap (fun t => f (g t))
      = (List.range n).flatMap (fun t => f (g t)) ++ f (g n) := by
  rw [List.range_succ, List.flatMap_append]; simp

/-- The invariant of the time loop. -/
structure MainInv (env : Env α) (s0 : ObjFiles α) (dir : Nat) (label : String) (w n : Nat)
    (d : Drive α) : Prop where
  state : At env s0 (allCalls dir (fun t => loadAfter (t + 1)) n) d.state
  epsSize : d.eps.size = 6
  eps : d.eps.val = uni dir (loadAfter n)
  sig : d.sig.size = 6
  out : ∃ sg : Nat → Nat → α,
    d.out = (List.range n).flatMap (fun t => stepReport label w t (loadAfter (t + 1)) (sg t)) ∧
    ∀ t, t < n → Holds env (allCalls dir (fun t => loadAfter (t + 1)) t ++
      [.setStrain 1 (uni dir (loadAfter (t + 1))), .homogenize]) s0 1 s0.obj.cfg.nvoi
      (uni dir (loadAfter (t + 1))) (sg t)

theorem lastStrain_two (l : List (Call α)) (id : Int) (eps : Nat → α) :
    Props.lastStrain id (l ++ [.setStrain id eps, .homogenize]) = some eps := by
  simp [Props.lastStrain]

theorem mainStep_sane {env : Env α} {s0 : ObjFiles α} (h0 : Props.Fresh s0) {dir : Nat}
    (hd : dir < 6) {label : String} {w n : Nat} (hw : w ≤ 6) {d : Drive α}
    (h : MainInv env s0 dir label w n d) :
    Sane env (MainInv env s0 dir label w (n + 1)) (mainStep env dir label w n d) := by
  obtain ⟨eps, e1, e2, e3⟩ := loadStep_ok hd n h.epsSize h.eps
  unfold mainStep
  rw [e1, M_bind_ok', cSetStrain_eq (by omega), e3]
  refine (cCall_at h.state _).bind fun s1 h1 => ?_
  refine (cCall_at h1 _).bind fun s2 h2 => ?_
  rw [List.append_assoc] at h2
  obtain ⟨g, hg, hgi, arr, a1, a2, a3⟩ := cGetStress_ok h0 h2 (id := 1)
    (by rw [setIds_append]; simp [Props.setIds]) (sig := d.sig) (by rw [h.sig])
  rw [a1, M_bind_ok']
  refine (cCall_at h2 _).bind fun s3 h3 => ?_
  refine (cCall_at h3 _).bind fun s4 h4 => ?_
  rw [Buf.readI_at (by omega), M_bind_ok', printRow_ok (by rw [a2, h.sig]; exact hw), M_bind_ok']
  refine (cCall_at h4 _).bind fun s5 h5 => ?_
  obtain ⟨sg, o1, o2⟩ := h.out
  refine Sane.ok ⟨?_, e2, e3, by rw [← h.sig, ← a2], fun t => if t = n then arr.val else sg t, ?_, ?_⟩
  · refine ⟨h5.ok, ?_⟩
    have := h5.run
    unfold allCalls at this ⊢
    rw [List.range_succ, List.flatMap_append]
    simpa [stepCalls] using this
  · simp only
    rw [List.range_succ, List.flatMap_append, o1]
    have hcong : (List.range n).flatMap (fun t => stepReport label w t (loadAfter (α := α) (t + 1)) (sg t))
        = (List.range n).flatMap (fun t => stepReport label w t (loadAfter (t + 1))
            (if t = n then arr.val else sg t)) := by
      refine List.flatMap_congr ?_
      intro t ht
      rw [List.mem_range] at ht
      rw [if_neg (by omega)]
    rw [hcong]
    have hx : eps.val dir = loadAfter (n + 1) := by rw [e3]; simp [uni]
    simp only [hx, List.append_assoc, List.flatMap_cons, List.flatMap_nil, List.append_nil,
      stepReport, if_true]
  · intro t ht
    by_cases hn : t = n
    · subst hn
      refine ⟨s2, h2.run, g, hg, hgi, fun i hi => ⟨?_, ?_⟩⟩
      · exact holds_strain h0 h2 hg (by rw [hgi]; exact lastStrain_two _ _ _) i hi
      · simp only [if_true]; exact (a3 i hi).symm
    · simp only [if_neg hn]
      exact o2 t (by omega)

/-! ## test3d_8 -/

theorem loop_two {σ : Type} (f : Nat → σ → M σ) (s : σ) :
    loop 2 f s = (f 0 s >>= f 1) := rfl

/-- The invariant of the time loop of test3d_8. -/
structure MainInv8 (env : Env α) (s0 : ObjFiles α) (n : Nat) (d : Drive α) : Prop where
  state : At env s0 (allCalls8 (fun t => loadAfter (t + 1)) n) d.state
  epsSize : d.eps.size = 6
  eps : d.eps.val = uni 2 (loadAfter n)
  sig : d.sig.size = 6
  out : ∃ sg : Nat → Nat → Nat → α,
    d.out = (List.range n).flatMap
      (fun t => stepReport8 t (uni 2 (loadAfter (t + 1))) (sg t)) ∧
    ∀ t, t < n → ∀ k : Nat, k < 2 → Holds env (allCalls8 (fun t => loadAfter (t + 1)) t ++
      [.setStrain 0 (uni 2 (loadAfter (t + 1))), .setStrain 1 (uni 2 (loadAfter (t + 1))),
        .homogenize]) s0 k s0.obj.cfg.nvoi (uni 2 (loadAfter (t + 1))) (sg t k)

theorem mainStep8_sane {env : Env α} {s0 : ObjFiles α} (h0 : Props.Fresh s0) {n : Nat} {d : Drive α}
    (h : MainInv8 env s0 n d) :
    Sane env (MainInv8 env s0 (n + 1)) (mainStep8 env n d) := by
  obtain ⟨eps, e1, e2, e3⟩ := loadStep_ok (dir := 2) (by omega) n h.epsSize h.eps
  have e1' : loadStep n 2 d.eps = .ok eps := e1
  unfold mainStep8 setGps getGps
  rw [e1', M_bind_ok', loop_two]
  simp only [bind_assoc, pure_bind]
  rw [cSetStrain_eq (by omega)]
  refine (cCall_at h.state _).bind fun s1 h1 => ?_
  rw [printRow_ok (by omega), M_bind_ok', cSetStrain_eq (by omega)]
  refine (cCall_at h1 _).bind fun s2 h2 => ?_
  rw [M_bind_ok']
  refine (cCall_at h2 _).bind fun s3 h3 => ?_
  rw [List.append_assoc, List.append_assoc, e3] at h3
  obtain ⟨g, hg, hgi, arr, a1, a2, a3⟩ := cGetStress_ok h0 h3 (id := ((0 : Nat) : Int))
    (by rw [setIds_append]; simp [Props.setIds]) (sig := d.sig) (by rw [h.sig])
  obtain ⟨g', hg', hgi', arr', a1', a2', a3'⟩ := cGetStress_ok h0 h3 (id := ((1 : Nat) : Int))
    (by rw [setIds_append]; simp [Props.setIds]) (sig := arr) (by rw [a2, h.sig])
  rw [loop_two]
  simp only [bind_assoc, pure_bind]
  rw [a1, M_bind_ok', printRow_ok (by rw [a2, h.sig]), M_bind_ok', a1', M_bind_ok',
    printRow_ok (by rw [a2', a2, h.sig]), M_bind_ok']
  refine (cCall_at h3 _).bind fun s4 h4 => ?_
  refine (cCall_at h4 _).bind fun s5 h5 => ?_
  obtain ⟨sg, o1, o2⟩ := h.out
  refine Sane.ok ⟨?_, e2, e3, by rw [← h.sig, ← a2, ← a2'],
    fun t k => if t = n then (if k = 0 then arr.val else arr'.val) else sg t k, ?_, ?_⟩
  · refine ⟨h5.ok, ?_⟩
    have := h5.run
    unfold allCalls8 at this ⊢
    rw [List.range_succ, List.flatMap_append]
    simpa [stepCalls8] using this
  · simp only
    have hsplit : ∀ F : Nat → List (Tok α),
        (List.range (n + 1)).flatMap F = (List.range n).flatMap F ++ F n := fun F => by
      rw [List.range_succ, List.flatMap_append]; simp
    rw [hsplit, o1]
    have hcong : (List.range n).flatMap
          (fun t => stepReport8 t (uni 2 (loadAfter (α := α) (t + 1))) (sg t))
        = (List.range n).flatMap (fun t => stepReport8 t (uni 2 (loadAfter (t + 1)))
            (fun k => if t = n then (if k = 0 then arr.val else arr'.val) else sg t k)) := by
      refine List.flatMap_congr ?_
      intro t ht
      rw [List.mem_range] at ht
      simp only [if_neg (show t ≠ n by omega)]
    rw [hcong]
    simp [stepReport8, gpReport, e3]
  · intro t ht k hk
    by_cases hn : t = n
    · subst hn
      simp only [if_true]
      have hk' : k = 0 ∨ k = 1 := by omega
      rcases hk' with rfl | rfl
      · refine ⟨s3, h3.run, g, hg, hgi, fun i hi => ⟨?_, (a3 i hi).symm⟩⟩
        exact holds_strain h0 h3 hg (by rw [hgi]; simp [Props.lastStrain]) i hi
      · refine ⟨s3, h3.run, g', hg', hgi', fun i hi => ⟨?_, (a3' i hi).symm⟩⟩
        exact holds_strain h0 h3 hg' (by rw [hgi']; simp [Props.lastStrain]) i hi
    · simp only [if_neg hn]
      exact o2 t (by omega) k hk

end Verif
