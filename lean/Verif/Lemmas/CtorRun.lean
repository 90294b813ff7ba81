import Verif.Model.CtorText
import Verif.Lemmas.ObjElem
import Verif.Lemmas.FileRun
import Verif.Lemmas.ObjSolve
import Verif.Lemmas.Build

/-!
# Runs of the parts of the constructor
-/

namespace Verif.Text

variable {α : Type} [Scalar α] {c : Cfg α} {env : Env α} {s : St α}

theorem Gives.cond {n : Nat} {b : BExp} {p q : Stmt} {P : St α → Prop} {v : Prop} [Decidable v]
    (hb : b.eval c s = .ok (decide v)) (hp : v → Gives (p.exec c (run c n) s) P)
    (hq : ¬ v → Gives (q.exec c (run c n) s) P) : Gives ((Stmt.ite b p q).exec c (run c n) s) P := by
  by_cases h : v
  · exact Gives.ite_pos (ok_to hb (by simp [h])) (hp h)
  · exact Gives.ite_neg (ok_to hb (by simp [h])) (hq h)

theorem VecOn.ofEq {β : Type} {o : Option (Vec β)} {a : Vec β} (h : o = some a) {S : Nat → Prop} {f : Nat → β}
    (hf : ∀ q, S q → a.val q = some (f q)) : VecOn o a.n S f := ⟨a, h, le_rfl, hf⟩

/-! ## The initialisers -/

theorem run_k_init (L : LitLaws α) {a : Args α} (j : Junk α) (hx1 : 1 ≤ a.size 0) (hy1 : 1 ≤ a.size 1)
    (hz1 : a.dim ≠ 2 → 1 ≤ a.size 2) :
    Gives (k_init.exec (cfg0 j) (run (cfg0 j) 0) ⟨work0 j, ctorIn a j⟩) (fun t => t.w = work0 j ∧
      cfgOut j t.l = .ok { mkCfg a j ⟨0, j.elemType⟩ with mats := j.mats } ∧
      t.l.i .output_files_header = some 0 ∧ t.l.v = (ctorIn a j).v ∧ t.l.iv = (ctorIn a j).iv) := by
  obtain ⟨s, hs0⟩ : ∃ s : St α, s = ⟨work0 j, ctorIn a j⟩ := ⟨_, rfl⟩
  rw [← hs0]
  have hv0 : s.l.v = (ctorIn a j).v := by rw [hs0]
  have hiv0 : s.l.iv = (ctorIn a j).iv := by rw [hs0]
  rw [← hv0, ← hiv0]
  obtain ⟨v0, hv1⟩ : ∃ v, s.l.v = v := ⟨_, rfl⟩
  obtain ⟨iv0, hiv1⟩ : ∃ v, s.l.iv = v := ⟨_, rfl⟩
  rw [hv1, hiv1]
  have hw : s.w = work0 j := by rw [hs0]
  have hd : s.l.i .a_dim = some (a.dim : Int) := by rw [hs0]; rfl
  have hm : s.l.i .a_micro_type = some a.microType := by rw [hs0]; rfl
  have hsz : VecOn (s.l.iv .size) 3 (fun _ => True) (fun q => (a.size q : Int)) := by
    rw [hs0]; exact ⟨_, rfl, le_rfl, fun _ _ => rfl⟩
  have hmp : VecOn (s.l.v .a_micro_params) 5 (· < 5) a.microParams := by
    rw [hs0]; exact ⟨_, rfl, le_rfl, fun _ _ => rfl⟩
  have htol : VecOn (s.l.v .micro_params) 5 (fun q => 4 ≤ q ∧ q < 5) (fun _ => j.invTol) := by
    rw [hs0]; exact ⟨_, rfl, le_rfl, fun q hq => by
      obtain rfl : q = 4 := by omega
      rfl⟩
  have key : Gives (k_init.exec (cfg0 j) (run (cfg0 j) 0) s) (fun t => t.w = work0 j ∧
      cfgOut j t.l = .ok { mkCfg a j ⟨0, j.elemType⟩ with mats := j.mats } ∧
      t.l.i .output_files_header = some 0) := by
    clear hs0 hv0 hiv0 hv1 hiv1 v0 iv0
    obtain ⟨nz, hnz⟩ : ∃ nz, nz = if a.dim = 2 then 1 else a.size 2 := ⟨_, rfl⟩
    obtain ⟨lz, hlz⟩ : ∃ lz : α, lz = if a.dim = 2 then 0 else a.microParams 2 := ⟨_, rfl⟩
    have hnz1 : 1 ≤ nz := by
      rw [hnz]; split
      · exact le_rfl
      · rename_i h; exact hz1 h
    have hsub : ∀ n : Nat, 1 ≤ n → ((n : Int) - 1) = ((n - 1 : Nat) : Int) := fun n h => by omega
    have hsize : ∀ (t : St α) (k : Nat), k < 3 → VecOn (t.l.iv .size) 3 (fun _ => True) (fun q => (a.size q : Int)) →
        (IExp.rd .size (.lit k)).eval (cfg0 j) t.l = .ok (a.size k : Int) := fun t k hk h => by
      have := ev_ird (c := cfg0 j) h (ev_ilit k) (by omega) (by omega) trivial
      simpa using this
    refine Gives.seq (Gives.setI (ev_ivar hd)) ?_
    intro t hs hdim; keep hs
    refine Gives.seq (Gives.setI (hsize _ 0 (by omega) hsz)) ?_
    intro t hs hx; keep hs
    refine Gives.seq (Gives.setI (hsize _ 1 (by omega) hsz)) ?_
    intro t hs hy; keep hs
    refine Gives.seq (P := fun t => t.l.i .nz = some (nz : Int)) (Gives.cond (v := a.dim = 2)
      (ok_to (ev_eqI (ev_ivar hd) (ev_ilit _)) (by simp; omega)) ?_ ?_) ?_
    · intro h; rw [hnz, if_pos h]; exact Gives.setI (ev_ilit _)
    · intro h; rw [hnz, if_neg h]; exact Gives.setI (hsize _ 2 (by omega) hsz)
    intro t hs hz; keep hs
    refine Gives.seq (Gives.setI (k := ((a.size 0 * a.size 1 * nz : Nat) : Int)) (by idx)) ?_
    intro t hs hnn; keep hs
    refine Gives.seq (Gives.setD (y := a.microParams 0) (by evs; rfl)) ?_
    intro t hs hlx; keep hs
    refine Gives.seq (Gives.setD (y := a.microParams 1) (by evs; rfl)) ?_
    intro t hs hly; keep hs
    refine Gives.seq (P := fun t => t.l.d .lz = some lz) (Gives.cond (v := a.dim = 2)
      (ok_to (ev_eqI (ev_ivar hdim) (ev_ilit _)) (by simp; omega)) ?_ ?_) ?_
    · intro h; rw [hlz, if_pos h]; exact Gives.setD (ok_to (ev_lit _ _ _) L.zeroD)
    · intro h; rw [hlz, if_neg h]; exact Gives.setD (by evs; rfl)
    intro t hs hl; keep hs
    refine Gives.seq (Gives.setD (y := a.microParams 0 / ((a.size 0 - 1 : Nat) : α)) (by
      evs; rw [hsub _ hx1]; rfl)) ?_
    intro t hs hdx; keep hs
    refine Gives.seq (Gives.setD (y := a.microParams 1 / ((a.size 1 - 1 : Nat) : α)) (by
      evs; rw [hsub _ hy1]; rfl)) ?_
    intro t hs hdy; keep hs
    refine Gives.seq (Gives.setD (y := lz / ((nz - 1 : Nat) : α)) (by
      evs; rw [hsub _ hnz1]; rfl)) ?_
    intro t hs hdz; keep hs
    refine Gives.seq (Gives.setD (y := a.microParams 3) (by evs; rfl)) ?_
    intro t hs hwid; keep hs
    refine Gives.seq (Gives.setD (y := j.invTol) (by evs; rfl)) ?_
    intro t hs hto; keep hs
    have hb : ∀ t : St α, t.l.i .dim = some (a.dim : Int) →
        (BExp.eqI (.var .dim) (.lit 2)).eval (cfg0 j) t = .ok (decide (a.dim = 2)) := fun t h =>
      ok_to (ev_eqI (ev_ivar h) (ev_ilit _)) (by simp; omega)
    refine Gives.seq (P := fun t => t.l.i .npe = some ((if a.dim = 2 then 4 else 8 : Nat) : Int))
      (Gives.cond (hb _ hdim) ?_ ?_) ?_
    · intro h; rw [if_pos h]; exact Gives.setI (ev_ilit _)
    · intro h; rw [if_neg h]; exact Gives.setI (ev_ilit _)
    intro t hs hnpe; keep hs
    refine Gives.seq (P := fun t => t.l.i .nvoi = some ((if a.dim = 2 then 3 else 6 : Nat) : Int))
      (Gives.cond (hb _ hdim) ?_ ?_) ?_
    · intro h; rw [if_pos h]; exact Gives.setI (ev_ilit _)
    · intro h; rw [if_neg h]; exact Gives.setI (ev_ilit _)
    intro t hs hnvoi; keep hs
    obtain ⟨ne, hne⟩ : ∃ ne, ne = if a.dim = 2 then (a.size 0 - 1) * (a.size 1 - 1)
      else (a.size 0 - 1) * (a.size 1 - 1) * (nz - 1) := ⟨_, rfl⟩
    refine Gives.seq (P := fun t => t.l.i .nelem = some (ne : Int)) (Gives.cond (hb _ hdim) ?_ ?_) ?_
    · intro h; rw [hne, if_pos h]
      exact Gives.setI (by evs; rw [hsub _ hx1, hsub _ hy1, Nat.cast_mul])
    · intro h; rw [hne, if_neg h]
      exact Gives.setI (by evs; rw [hsub _ hx1, hsub _ hy1, hsub _ hnz1, Nat.cast_mul, Nat.cast_mul])
    intro t hs hnel; keep hs
    refine Gives.seq (Gives.setI (ev_ivar hm)) ?_
    intro t hs hmt; keep hs
    refine Gives.seq (Gives.setI (k := ((ne * 8 * 7 : Nat) : Int)) (by
      evs; rw [Nat.cast_mul, Nat.cast_mul]; rfl)) ?_
    intro t hs hniv; keep hs
    refine (Gives.setI (ev_ilit _)).same.mono ?_
    rintro t ⟨hs, hh⟩; keep hs
    refine ⟨hw, ?_, hh⟩
    unfold cfgOut
    simp only [hdim, hx, hy, hz, hnn, hnpe, hnvoi, hnel, hniv, hmt, hlx, hly, hl, hdx, hdy, hdz, hwid, hto, need,
      M_bind_ok', Int.toNat_natCast]
    rw [if_pos]
    · simp only [mkCfg, hnz, hlz]; rfl
    · simp only [Cfg.nn, Cfg.npe, Cfg.nvoi, Cfg.nelem, Cfg.numIntVars, hne]
  obtain ⟨t, h1, h2, h3, h4⟩ := key
  have h5 := exec_same (run_same 0) k_init h1
  exact ⟨t, h1, h2, h3, h4, by rw [← hv1]; exact funext fun x => h5.v x rfl,
    by rw [← hiv1]; exact funext fun x => h5.iv x rfl⟩

/-! ## The body up to the loops over the elements -/

/-- An array whose first `k` entries are those of `f`, the others without values. -/
def firstK {β : Type} (N k : Nat) (f : Nat → Option β) : Vec β := ⟨N, fun q => if q < k then f q else none⟩

theorem firstK_zero {β : Type} (N : Nat) (f : Nat → Option β) : firstK N 0 f = ⟨N, fun _ => none⟩ := by
  simp [firstK]

theorem firstK_succ {β : Type} (N k : Nat) (f : Nat → Option β) :
    firstK N (k + 1) f = ⟨N, fun q => if q = k then f k else (firstK N k f).val q⟩ := by
  unfold firstK
  congr 1
  funext q
  by_cases h : q = k
  · subst h; simp
  · rw [if_neg h]
    by_cases h' : q < k
    · simp only [if_pos h', if_pos (show q < k + 1 by omega)]
    · simp only [if_neg h', if_neg (show ¬q < k + 1 by omega)]

theorem Gives.stK {n : Nat} {x : V} {i : IExp} {e : DExp} {N k : Nat} {f : Nat → Option α} {y : α}
    (hv : s.l.v x = some (firstK N k f)) (hi : i.eval c s.l = .ok (k : Int)) (hk : k < N)
    (he : e.eval c s = .ok y) (hf : f k = some y) :
    Gives ((Stmt.st1 x i e).exec c (run c n) s) (fun t => t.l.v x = some (firstK N (k + 1) f) ∧
      VecOn (t.l.v x) N (fun q => k ≤ q ∧ q < k + 1) (fun _ => y)) := by
  have h : (k : Int) < (firstK N k f).n := by show (k : Int) < N; omega
  refine ⟨{ s with l.v := upd s.l.v x (some (firstK N (k + 1) f)) }, ?_, if_pos rfl, firstK N (k + 1) f, if_pos rfl,
    le_rfl, ?_⟩
  · rw [firstK_succ, hf]
    simp [Stmt.exec, hi, he, hv, need, Vec.wr, h]
    rfl
  · intro q hq
    obtain rfl : q = k := by omega
    simp [firstK, hf]

theorem Gives.stKI {n : Nat} {x : V} {i e : IExp} {N k : Nat} {f : Nat → Option Int} {y : Int}
    (hv : s.l.iv x = some (firstK N k f)) (hi : i.eval c s.l = .ok (k : Int)) (hk : k < N)
    (he : e.eval c s.l = .ok y) (hf : f k = some y) :
    Gives ((Stmt.stI x i e).exec c (run c n) s) (fun t => t.l.iv x = some (firstK N (k + 1) f)) := by
  have h : (k : Int) < (firstK N k f).n := by show (k : Int) < N; omega
  refine ⟨{ s with l.iv := upd s.l.iv x (some (firstK N (k + 1) f)) }, ?_, if_pos rfl⟩
  rw [firstK_succ, hf]
  simp [Stmt.exec, hi, he, hv, need, Vec.wr, h]
  rfl

/-- The flag `plasticity` assigned for a type. -/
def plastFlag (ty : Int) : Option Int :=
  if ty = 0 then some 0 else if ty = 1 then some 1 else if ty = 2 then some 0 else none

/-- The flag `damage` assigned for a type. -/
def damFlag (ty : Int) : Option Int :=
  if ty = 0 then some 0 else if ty = 1 then some 0 else if ty = 2 then some 1 else none

/-- The first `k` materials are assigned. -/
structure MlOn (l : Loc α) (M : Nat → Material α) (ty : Nat → Int) (m : Nat) : Prop where
  E : l.v .ml_E = some (firstK 10 m fun q => some (M q).E)
  nu : l.v .ml_nu = some (firstK 10 m fun q => some (M q).nu)
  k : l.v .ml_k = some (firstK 10 m fun q => some (M q).k)
  mu : l.v .ml_mu = some (firstK 10 m fun q => some (M q).mu)
  lam : l.v .ml_lam = some (firstK 10 m fun q => some (M q).lambda)
  Ka : l.v .ml_Ka = some (firstK 10 m fun q => some (M q).Ka)
  Sy : l.v .ml_Sy = some (firstK 10 m fun q => some (M q).Sy)
  pl : l.iv .ml_plasticity = some (firstK 10 m fun q => plastFlag (ty q))
  dm : l.iv .ml_damage = some (firstK 10 m fun q => damFlag (ty q))

/-- The body of the loop over the materials. -/
def k_mat : Stmt :=
  .st1 .ml_E (.var .i) (.rd1 .params (.add (.mul (.var .i) (.lit 10)) (.lit 0))) ;;
  .st1 .ml_nu (.var .i) (.rd1 .params (.add (.mul (.var .i) (.lit 10)) (.lit 1))) ;;
  .st1 .ml_Sy (.var .i) (.rd1 .params (.add (.mul (.var .i) (.lit 10)) (.lit 2))) ;;
  .st1 .ml_Ka (.var .i) (.rd1 .params (.add (.mul (.var .i) (.lit 10)) (.lit 3))) ;;
  .st1 .ml_k (.var .i) (.div (.rd1 .ml_E (.var .i)) (.mul (.ofInt (.lit 3)) (.sub (.ofInt (.lit 1)) (.mul (.ofInt (.lit 2)) (.rd1 .ml_nu (.var .i)))))) ;;
  .st1 .ml_mu (.var .i) (.div (.rd1 .ml_E (.var .i)) (.mul (.ofInt (.lit 2)) (.add (.ofInt (.lit 1)) (.rd1 .ml_nu (.var .i))))) ;;
  .st1 .ml_lam (.var .i) (.div (.mul (.rd1 .ml_nu (.var .i)) (.rd1 .ml_E (.var .i))) (.mul (.add (.ofInt (.lit 1)) (.rd1 .ml_nu (.var .i))) (.sub (.ofInt (.lit 1)) (.mul (.ofInt (.lit 2)) (.rd1 .ml_nu (.var .i)))))) ;;
  .ite (.eqI (.rd .mat_types (.var .i)) (.lit 0)) (
    .stI .ml_plasticity (.var .i) (.lit 0) ;;
    .stI .ml_damage (.var .i) (.lit 0)) (
    .ite (.eqI (.rd .mat_types (.var .i)) (.lit 1)) (
      .stI .ml_plasticity (.var .i) (.lit 1) ;;
      .stI .ml_damage (.var .i) (.lit 0)) (
      .ite (.eqI (.rd .mat_types (.var .i)) (.lit 2)) (
        .stI .ml_plasticity (.var .i) (.lit 0) ;;
        .stI .ml_damage (.var .i) (.lit 1)) (
        .skip)))

theorem run_k_mat (L : LitLaws α) {n k : Nat} (hk : k < 2) {p : Nat → α} {ty : Nat → Int} {jm : Nat → Material α}
    (hi : s.l.i .i = some (k : Int)) (hp : VecOn (s.l.v .params) 20 (· < 20) p)
    (ht : VecOn (s.l.iv .mat_types) 2 (· < 2) ty)
    (hM : MlOn s.l (fun i => mkMaterial (fun k => p (i * 10 + k)) (ty i) (jm i)) ty k) :
    Gives (k_mat.exec c (run c n) s)
      (fun t => MlOn t.l (fun i => mkMaterial (fun k => p (i * 10 + k)) (ty i) (jm i)) ty (k + 1)) := by
  obtain ⟨hE, hnu, hkk, hmu, hla, hKa, hSy, hpl, hdm⟩ := hM
  have hpar : ∀ (t : St α) (z : Nat), z < 4 → t.l.i .i = some (k : Int) → VecOn (t.l.v .params) 20 (· < 20) p →
      (DExp.rd1 .params (.add (.mul (.var .i) (.lit 10)) (.lit z))).eval c t = .ok (p (k * 10 + z)) := by
    intro t z hz hi hp
    refine ok_to (ev_rd1 hp (ev_iadd (ev_imul (ev_ivar hi) (ev_ilit _)) (ev_ilit _)) (by omega) (by omega)
      (by omega)) ?_
    congr 1
  refine Gives.seq (Gives.stK hE (ev_ivar hi) (by omega) (hpar _ 0 (by omega) hi hp) rfl) ?_
  clear hE; rintro t hs ⟨hE, vE⟩; keep hs
  refine Gives.seq (Gives.stK hnu (ev_ivar hi) (by omega) (hpar _ 1 (by omega) hi hp) rfl) ?_
  clear hnu; rintro t hs ⟨hnu, vnu⟩; keep hs
  refine Gives.seq (Gives.stK hSy (ev_ivar hi) (by omega) (hpar _ 2 (by omega) hi hp) rfl) ?_
  clear hSy; rintro t hs ⟨hSy, -⟩; keep hs
  refine Gives.seq (Gives.stK hKa (ev_ivar hi) (by omega) (hpar _ 3 (by omega) hi hp) rfl) ?_
  clear hKa; rintro t hs ⟨hKa, -⟩; keep hs
  have e1 : ∀ t : St α, t.l.i .i = some (k : Int) →
      VecOn (t.l.v .ml_E) 10 (fun q => k ≤ q ∧ q < k + 1) (fun _ => p (k * 10 + 0)) →
      (DExp.rd1 .ml_E (.var .i)).eval c t = .ok (p (k * 10 + 0)) := fun t hi h =>
    ev_rd1 h (ev_ivar hi) (by omega) (by omega) (by omega)
  have e2 : ∀ t : St α, t.l.i .i = some (k : Int) →
      VecOn (t.l.v .ml_nu) 10 (fun q => k ≤ q ∧ q < k + 1) (fun _ => p (k * 10 + 1)) →
      (DExp.rd1 .ml_nu (.var .i)).eval c t = .ok (p (k * 10 + 1)) := fun t hi h =>
    ev_rd1 h (ev_ivar hi) (by omega) (by omega) (by omega)
  have l1 : ∀ t : St α, (DExp.ofInt (.lit 1)).eval c t = .ok (1 : α) := fun t => ok_to (ev_ofInt (ev_ilit _)) L.ofInt1
  refine Gives.seq (Gives.stK hkk (ev_ivar hi) (by omega) (ev_div (e1 _ hi vE) (ev_mul (ev_ofInt (ev_ilit _))
    (ev_sub (l1 _) (ev_mul (ev_ofInt (ev_ilit _)) (e2 _ hi vnu))))) rfl) ?_
  clear hkk; rintro t hs ⟨hkk, -⟩; keep hs
  refine Gives.seq (Gives.stK hmu (ev_ivar hi) (by omega) (ev_div (e1 _ hi vE) (ev_mul (ev_ofInt (ev_ilit _))
    (ev_add (l1 _) (e2 _ hi vnu)))) rfl) ?_
  clear hmu; rintro t hs ⟨hmu, -⟩; keep hs
  refine Gives.seq (Gives.stK hla (ev_ivar hi) (by omega) (ev_div (ev_mul (e2 _ hi vnu) (e1 _ hi vE))
    (ev_mul (ev_add (l1 _) (e2 _ hi vnu)) (ev_sub (l1 _) (ev_mul (ev_ofInt (ev_ilit _)) (e2 _ hi vnu))))) rfl) ?_
  clear hla; rintro t hs ⟨hla, -⟩; keep hs
  clear vE vnu e1 e2 l1 hpar
  have hty : ∀ y : Int, (BExp.eqI (.rd .mat_types (.var .i)) (.lit y)).eval c t = .ok (decide (ty k = y)) := fun y =>
    ok_to (ev_eqI (ev_ird ht (ev_ivar hi) (by omega) (by omega) (by omega)) (ev_ilit _)) rfl
  refine Gives.cond (hty 0) (fun h0 => ?_) fun h0 => Gives.cond (hty 1) (fun h1 => ?_) fun h1 =>
    Gives.cond (hty 2) (fun h2 => ?_) fun h2 => ?_
  · clear hty
    refine Gives.seq (Gives.stKI hpl (ev_ivar hi) (by omega) (ev_ilit _) (by simp [plastFlag, h0])) ?_
    clear hpl; intro t hs hpl; keep hs
    refine (Gives.stKI hdm (ev_ivar hi) (by omega) (ev_ilit _) (by simp [damFlag, h0])).same.mono ?_
    clear hdm; rintro t ⟨hs, hdm⟩; keep hs
    exact ⟨hE, hnu, hkk, hmu, hla, hKa, hSy, hpl, hdm⟩
  · clear hty
    refine Gives.seq (Gives.stKI hpl (ev_ivar hi) (by omega) (ev_ilit _) (by simp [plastFlag, h1])) ?_
    clear hpl; intro t hs hpl; keep hs
    refine (Gives.stKI hdm (ev_ivar hi) (by omega) (ev_ilit _) (by simp [damFlag, h1])).same.mono ?_
    clear hdm; rintro t ⟨hs, hdm⟩; keep hs
    exact ⟨hE, hnu, hkk, hmu, hla, hKa, hSy, hpl, hdm⟩
  · clear hty
    refine Gives.seq (Gives.stKI hpl (ev_ivar hi) (by omega) (ev_ilit _) (by simp [plastFlag, h2])) ?_
    clear hpl; intro t hs hpl; keep hs
    refine (Gives.stKI hdm (ev_ivar hi) (by omega) (ev_ilit _) (by simp [damFlag, h2])).same.mono ?_
    clear hdm; rintro t ⟨hs, hdm⟩; keep hs
    exact ⟨hE, hnu, hkk, hmu, hla, hKa, hSy, hpl, hdm⟩
  · refine Gives.skip.mono ?_
    rintro _ rfl
    have e : ∀ f : Nat → Option Int, f k = none → firstK 10 k f = firstK 10 (k + 1) f := fun f hf => by
      rw [firstK_succ, hf]
      unfold firstK
      congr 1
      funext q
      by_cases h : q = k
      · rw [if_pos h, if_neg (by omega)]
      · rw [if_neg h]
    refine ⟨hE, hnu, hkk, hmu, hla, hKa, hSy, ?_, ?_⟩
    · rw [hpl, e _ (by simp [plastFlag, h0, h1, h2])]
    · rw [hdm, e _ (by simp [damFlag, h0, h1, h2])]

theorem matsOut_eq {p : Nat → α} {ty : Nat → Int} {jm : Nat → Material α} {l : Loc α}
    (h : MlOn l (fun i => mkMaterial (fun k => p (i * 10 + k)) (ty i) (jm i)) ty 2) :
    matsOut jm l = fun i => if i < 2 then mkMaterial (fun k => p (i * 10 + k)) (ty i) (jm i) else jm i := by
  funext i
  unfold matsOut
  rw [h.E, h.nu, h.k, h.mu, h.lam, h.Ka, h.Sy, h.pl, h.dm]
  by_cases hi : i < 2
  · simp only [arrOut, flagOut, firstK, if_pos hi, Option.getD_some]
    by_cases h0 : ty i = 0
    · simp [plastFlag, damFlag, mkMaterial, h0]
    · by_cases h1 : ty i = 1
      · simp [plastFlag, damFlag, mkMaterial, h1]
      · by_cases h2 : ty i = 2
        · simp [plastFlag, damFlag, mkMaterial, h2]
        · simp [plastFlag, damFlag, mkMaterial, h0, h1, h2]
  · simp only [arrOut, flagOut, firstK, if_neg hi]
    rfl

theorem Gives.alloc {env : Env α} {call : OFn → St α → M (St α)} {g : GA} {e : IExp} {N : Nat}
    (he : e.eval c s.l = .ok (N : Int)) :
    Gives ((OStmt.alloc g e).exec env c call s) (fun t => t = ⟨g.set s.w ⟨N, (g.get s.w).val⟩, s.l⟩) := by
  refine ⟨_, ?_, rfl⟩
  simp only [OStmt.exec, he]
  rfl

theorem Gives.omallocI {env : Env α} {call : OFn → St α → M (St α)} {x : V} {e : IExp} {N : Nat}
    (he : e.eval c s.l = .ok (N : Int)) :
    Gives ((OStmt.base (.mallocI x e)).exec env c call s)
      (fun t => t = ⟨s.w, { s.l with iv := upd s.l.iv x (some ⟨N, fun _ => none⟩) }⟩) := by
  refine ⟨_, ?_, rfl⟩
  simp only [OStmt.exec, Stmt.exec, he]
  rfl

/-- The part of the body between the blocks of memory and the materials. -/
def k_pre : Stmt :=
    .declI .nParams ;;
    .ite (.eqI (.mem .micro_type) (.lit 0)) (
      .setI .numMaterials (.lit 2) ;;
      .setI .nParams (.lit 5)) (
      .ite (.eqI (.mem .micro_type) (.lit 1)) (
        .setI .numMaterials (.lit 2) ;;
        .setI .nParams (.lit 5)) (
        .skip)) ;;
    .for .i (.lit 0) (.var .nParams) (
      .st1 .micro_params (.var .i) (.rd1 .a_micro_params (.var .i)))

/-- The blocks of memory. -/
def k_alloc : OStmt :=
    .ite (.eqI (.mem .dim) (.lit 2)) (.base .skip) (
    .ite (.eqI (.mem .dim) (.lit 3)) (.base .skip) (
    .abort)) ;;;
    .alloc .b (.mul (.mem .nn) (.mem .dim)) ;;;
    .alloc .du (.mul (.mem .nn) (.mem .dim)) ;;;
    .alloc .u (.mul (.mem .nn) (.mem .dim)) ;;;
    .alloc .elem_stress (.mul (.mem .nelem) (.mem .nvoi)) ;;;
    .alloc .elem_strain (.mul (.mem .nelem) (.mem .nvoi)) ;;;
    .base (
      .mallocI .elem_type (.mem .nelem)) ;;;
    .alloc .vars_old (.mem .num_int_vars) ;;;
    .alloc .vars_new (.mem .num_int_vars) ;;;
    .base k_pre

/-- The file of the materials. -/
def k_file : FStmt :=
  .open .mats false ;;;;
  .for .i (.lit 0) (.var .numMaterials) (
    .obj (.base k_mat) ;;;;
    .put [.num (.rd1 .ml_E (.var .i)), .str " ", .num (.rd1 .ml_nu (.var .i)), .str " ", .num (.rd1 .ml_Sy (.var .i)), .str " ", .num (.rd1 .ml_Ka (.var .i)), .endl]) ;;;;
  .close

theorem f_ctor_parts : f_ctor = (.obj k_alloc ;;;; k_file) := rfl

/-- The lines of `materials.dat`. -/
def matLines (m : Nat → Material α) : List (Tok α) :=
  emitP 2 (fun i => [.num (m i).E, .sp, .num (m i).nu, .sp, .num (m i).Sy, .sp, .num (m i).Ka, .endl])

theorem matLines_congr {m m' : Nat → Material α} (h : ∀ i < 2, m i = m' i) : matLines m = matLines m' := by
  unfold matLines emitP
  simp only [show List.range 2 = [0, 1] from rfl, List.flatMap_cons, List.flatMap_nil, h 0 (by omega), h 1 (by omega)]

/-- What the materials are made of, and what they leave alone. -/
structure CtorOn (c : Cfg α) (a : Args α) (jm : Nat → Material α) (et : Vec Int) (h : Int) (w : Work α) (k : Nat) (s : St α) :
    Prop where
  w : s.w = w
  p : VecOn (s.l.v .params) 20 (· < 20) a.params
  t : VecOn (s.l.iv .mat_types) 2 (· < 2) a.matTypes
  e : s.l.iv .elem_type = some et
  h : s.l.i .output_files_header = some h
  M : MlOn s.l (fun i => mkMaterial (fun k => a.params (i * 10 + k)) (a.matTypes i) (jm i)) a.matTypes k

theorem run_k_pre {n : Nat} {a : Args α} {jm : Nat → Material α} {et : Vec Int} {h : Int} {w : Work α} (hw : s.w = w)
    (hm : c.microType = 0 ∨ c.microType = 1)
    (hp : VecOn (s.l.v .params) 20 (· < 20) a.params)
    (hq : VecOn (s.l.v .a_micro_params) 5 (· < 5) a.microParams)
    (hmp : VecOn (s.l.v .micro_params) 5 (fun q => q < 0) a.microParams)
    (ht : VecOn (s.l.iv .mat_types) 2 (· < 2) a.matTypes)
    (he : s.l.iv .elem_type = some et) (hh : s.l.i .output_files_header = some h)
    (hM : MlOn s.l (fun i => mkMaterial (fun k => a.params (i * 10 + k)) (a.matTypes i) (jm i)) a.matTypes 0) :
    Gives (k_pre.exec c (run c n) s) (fun t => CtorOn c a jm et h w 0 t ∧ t.l.i .numMaterials = some 2) := by
  obtain ⟨hE, hnu, hkk, hmu, hla, hKa, hSy, hpl, hdm⟩ := hM
  refine Gives.seq Gives.declI ?_
  rintro t hs -; keep hs
  refine Gives.seq (P := fun t => t.l.i .numMaterials = some 2 ∧ t.l.i .nParams = some 5) ?_ ?_
  · have hb : ∀ y : Int, (BExp.eqI (.mem .micro_type) (.lit y)).eval c t = .ok (decide (c.microType = y)) :=
      fun y => rfl
    refine Gives.cond (hb 0) (fun _ => ?_) fun h0 => Gives.cond (hb 1) (fun _ => ?_) fun h1 => ?_
    · refine Gives.seq (Gives.setI (ev_ilit _)) ?_
      intro t hs h1; keep hs
      refine (Gives.setI (ev_ilit _)).same.mono ?_
      rintro t ⟨hs, h2⟩; keep hs
      exact ⟨h1, h2⟩
    · refine Gives.seq (Gives.setI (ev_ilit _)) ?_
      intro t hs h1; keep hs
      refine (Gives.setI (ev_ilit _)).same.mono ?_
      rintro t ⟨hs, h2⟩; keep hs
      exact ⟨h1, h2⟩
    · omega
  rintro t hs ⟨hN, hP⟩; keep hs
  refine Gives.mono (Gives.same (Gives.for0 (N := 5) (fun _ t => VecOn (t.l.v .micro_params) 5 (fun q => q < 0) a.microParams)
      (fun _ _ _ h => h) (ev_ivar hP) hmp ?_)) ?_
  · clear hmp
    intro k t hk hs hi hmp; keep hs
    refine (Gives.st1 hmp (ev_ivar hi) rfl hk (ev_rd1 hq (ev_ivar hi) (by omega) (by omega) (by omega))).mono ?_
    rintro t ⟨v, h1, h2, -⟩
    exact ⟨v, h1, h2, fun q hq => absurd hq (Nat.not_lt_zero q)⟩
  clear hmp; rintro t ⟨hs, -⟩; keep hs
  exact ⟨⟨hw, hp, ht, he, hh, hE, hnu, hkk, hmu, hla, hKa, hSy, hpl, hdm⟩, hN⟩

theorem ev_firstK {x i : V} {k : Nat} {f : Nat → α} (hx : s.l.v x = some (firstK 10 (k + 1) fun q => some (f q)))
    (hi : s.l.i i = some (k : Int)) (hk : k < 10) : (DExp.rd1 x (.var i)).eval c s = .ok (f k) :=
  ev_rd1 (N := 10) (S := (· = k)) (f := f) ⟨_, hx, le_rfl, by
    rintro q rfl
    simp [firstK]⟩ (ev_ivar hi) (by omega) (by omega) rfl

theorem run_k_file (L : LitLaws α) (env : Env α) {ocall : OFn → St α → M (St α)} {gs : List (Gp α)} {call : FFn → FSt α → M (FSt α)} {a : Args α} {jm : Nat → Material α}
    {et : Vec Int} {h : Int} {w : Work α} {F : Files α} (hs : CtorOn c a jm et h w 0 s)
    (hN : s.l.i .numMaterials = some 2) :
    Gives (k_file.exec c gs (fun p => p.exec env c ocall) call ⟨s, F, none⟩) (fun u => CtorOn c a jm et h w 2 u.st ∧
      u.files = { F with materials := matLines (fun i => mkMaterial (fun k => a.params (i * 10 + k)) (a.matTypes i) (jm i)) } ∧ u.cur = none) := by
  refine Gives.fopen (f := .mats) rfl ?_
  refine Gives.femits (Emits.for (N := 2) (CtorOn c a jm et h w) ?_ (ev_ivar hN) hs ?_) ?_
    (ts := matLines (fun i => mkMaterial (fun k => a.params (i * 10 + k)) (a.matTypes i) (jm i)))
  · rintro k t o ⟨h0, h1, h2, h3, h4, h5⟩
    exact ⟨h0, h1, h2, h3, h4, h5.1, h5.2, h5.3, h5.4, h5.5, h5.6, h5.7, h5.8, h5.9⟩
  · rintro k t hk hi ⟨hw, hp, ht, he, hh, hM⟩
    refine Emits.cast (Emits.seq (Emits.obj (Gives.obase ((run_k_mat L hk hi hp ht hM).same))) ?_) (List.nil_append _)
    clear hM
    rintro t ⟨hs, hM⟩; keep hs
    have e1 := ev_firstK (c := c) hM.E hi (by omega)
    have e2 := ev_firstK (c := c) hM.nu hi (by omega)
    have e3 := ev_firstK (c := c) hM.Sy hi (by omega)
    have e4 := ev_firstK (c := c) hM.Ka hi (by omega)
    exact Emits.put (toks_num e1 (toks_str (toks_num e2 (toks_str (toks_num e3 (toks_str (toks_num e4
      (toks_endl toks_nil))))))))
      ⟨hw, hp, ht, he, hh, hM⟩
  · intro t ht
    exact Gives.fend ⟨ht, rfl, rfl⟩

/-- The blocks of memory are allocated, then the rest runs. -/
theorem agrees_k_alloc (env : Env α) {call : OFn → St α → M (St α)} {j : Junk α} {l : Loc α}
    (hd : c.dim = 2 ∨ c.dim = 3) {γ : Type} {m : M γ} {S : γ → St α → Prop}
    (h : Agrees (k_pre.exec c (run c 6) ⟨startWork c j (work0 j).A,
      { l with iv := upd l.iv .elem_type (some ⟨c.nelem, fun _ => none⟩) }⟩) m S) :
    Agrees (k_alloc.exec env c call ⟨work0 j, l⟩) m S := by
  have hdd : Gives ((OStmt.ite (.eqI (.mem .dim) (.lit 2)) (.base .skip) (
      .ite (.eqI (.mem .dim) (.lit 3)) (.base .skip) (.abort))).exec env c call ⟨work0 j, l⟩)
      (fun t => t = ⟨work0 j, l⟩) := by
    rcases hd with hd | hd
    · exact Gives.oite_pos (ok_to (ev_eqI (ev_imem _) (ev_ilit _)) (by simp [GI.get, hd])) (Gives.obase Gives.skip)
    · refine Gives.oite_neg (ok_to (ev_eqI (ev_imem _) (ev_ilit _)) (by simp [GI.get, hd]))
        (Gives.oite_pos (ok_to (ev_eqI (ev_imem _) (ev_ilit _)) (by simp [GI.get, hd])) (Gives.obase Gives.skip))
  have hnd : ∀ l : Loc α, (IExp.mul (.mem .nn) (.mem .dim)).eval c l = .ok ((c.nn * c.dim : Nat) : Int) := fun l => by
    rw [Nat.cast_mul]; rfl
  have hev : ∀ l : Loc α, (IExp.mul (.mem .nelem) (.mem .nvoi)).eval c l = .ok ((c.nelem * c.nvoi : Nat) : Int) :=
    fun l => by rw [Nat.cast_mul]; rfl
  refine Agrees.seqL hdd ?_
  rintro _ - rfl
  refine Agrees.seqL (Gives.alloc (hnd _)) ?_
  rintro _ - rfl
  refine Agrees.seqL (Gives.alloc (hnd _)) ?_
  rintro _ - rfl
  refine Agrees.seqL (Gives.alloc (hnd _)) ?_
  rintro _ - rfl
  refine Agrees.seqL (Gives.alloc (hev _)) ?_
  rintro _ - rfl
  refine Agrees.seqL (Gives.alloc (hev _)) ?_
  rintro _ - rfl
  refine Agrees.seqL (Gives.omallocI (N := c.nelem) rfl) ?_
  rintro _ - rfl
  refine Agrees.seqL (Gives.alloc (N := c.numIntVars) rfl) ?_
  rintro _ - rfl
  refine Agrees.seqL (Gives.alloc (N := c.numIntVars) rfl) ?_
  rintro _ - rfl
  exact h

theorem run_f_ctor (L : LitLaws α) (env : Env α) {ocall : OFn → St α → M (St α)} {gs : List (Gp α)} {call : FFn → FSt α → M (FSt α)} {a : Args α} {j : Junk α} {l : Loc α} {h : Int} {F : Files α}
    (hd : c.dim = 2 ∨ c.dim = 3) (hm : c.microType = 0 ∨ c.microType = 1)
    (hv : l.v = (ctorIn a j).v) (hiv : l.iv = (ctorIn a j).iv) (hh : l.i .output_files_header = some h) :
    Gives (f_ctor.exec c gs (fun p => p.exec env c ocall) call ⟨⟨work0 j, l⟩, F, none⟩)
      (fun u => u.st.w = startWork c j (work0 j).A ∧
      u.st.l.iv .elem_type = some ⟨c.nelem, fun _ => none⟩ ∧
      u.st.l.i .output_files_header = some h ∧
      (matsOut j.mats u.st.l = fun i => if i < 2 then mkMaterial (fun k => a.params (i * 10 + k)) (a.matTypes i) (j.mats i)
        else j.mats i) ∧
      u.files = { F with materials := matLines (fun i => mkMaterial (fun k => a.params (i * 10 + k)) (a.matTypes i) (j.mats i)) } ∧ u.cur = none) := by
  rw [f_ctor_parts]
  refine Gives.fobj (Q := fun t => CtorOn c a j.mats ⟨c.nelem, fun _ => none⟩ h (startWork c j (work0 j).A) 0 t ∧
    t.l.i .numMaterials = some 2) ?_ ?_
  · refine agrees_k_alloc env hd (γ := Unit) (m := .ok ()) (S := fun _ t =>
      CtorOn c a j.mats ⟨c.nelem, fun _ => none⟩ h (startWork c j (work0 j).A) 0 t ∧ t.l.i .numMaterials = some 2)
      (run_k_pre (a := a) (jm := j.mats) (h := h) rfl hm ?_ ?_ ?_ ?_ rfl ?_ ?_)
    · rw [hv]; exact ⟨_, rfl, le_rfl, fun _ _ => rfl⟩
    · rw [hv]; exact ⟨_, rfl, le_rfl, fun _ _ => rfl⟩
    · rw [hv]; exact ⟨_, rfl, le_rfl, fun q hq => absurd hq (Nat.not_lt_zero q)⟩
    · simp only [hiv]; exact ⟨_, rfl, le_rfl, fun _ _ => rfl⟩
    · exact hh
    · constructor <;> simp only [firstK_zero, hv, hiv] <;> rfl
  · rintro t ⟨h1, h2⟩
    exact (run_k_file L env h1 h2).mono fun u h => ⟨h.1.w, h.1.e, h.1.h, matsOut_eq h.1.M, h.2⟩

theorem f_ctor_dim (env : Env α) {ocall : OFn → St α → M (St α)} {gs : List (Gp α)} {call : FFn → FSt α → M (FSt α)}
    {x : FSt α} (hd : ¬(c.dim = 2 ∨ c.dim = 3)) :
    f_ctor.exec c gs (fun p => p.exec env c ocall) call x = .error .abort := by
  rw [not_or] at hd
  have h2 : ∀ k : Nat, ¬c.dim = k → ∀ s : St α, (BExp.eqI (.mem .dim) (.lit k)).eval c s = .ok false := fun k h s =>
    ok_to (ev_eqI (ev_imem _) (ev_ilit _)) (decide_eq_false (by simp only [GI.get]; omega))
  have e2 := h2 2 hd.1
  have e3 := h2 3 hd.2
  simp only [Nat.cast_ofNat] at e2 e3
  simp only [f_ctor_parts, k_alloc, FStmt.exec, OStmt.exec, e2, e3, M_bind_ok', Bool.false_eq_true, if_false]
  rfl

theorem f_ctor_micro (env : Env α) {ocall : OFn → St α → M (St α)} {gs : List (Gp α)} {call : FFn → FSt α → M (FSt α)}
    {j : Junk α} {l : Loc α} {F : Files α}
    (hd : c.dim = 2 ∨ c.dim = 3) (hm : ¬(c.microType = 0 ∨ c.microType = 1)) :
    f_ctor.exec c gs (fun p => p.exec env c ocall) call ⟨⟨work0 j, l⟩, F, none⟩ = .error .uninit := by
  rw [not_or] at hm
  have hb : ∀ (y : Int) (t : St α), (BExp.eqI (.mem .micro_type) (.lit y)).eval c t = .ok (decide (c.microType = y)) :=
    fun y t => rfl
  have key : k_alloc.exec env c ocall ⟨work0 j, l⟩ = .error .uninit := by
    refine agrees_k_alloc env hd (γ := Unit) (m := .error .uninit) (S := fun _ _ => True) ?_
    show _ = _
    simp only [k_pre, Stmt.exec, hb, decide_eq_false hm.1, decide_eq_false hm.2, M_bind_ok', Bool.false_eq_true, if_false]
    rfl
  rw [f_ctor_parts]
  simp only [FStmt.exec, key]
  rfl

/-! ## The loops over the elements and the matrix -/

theorem ofVec_fill {β : Type} {b p : Buf β} {o : Option (Vec β)} (h : FillOn o p b.val) : Buf.ofVec b o = p := by
  obtain ⟨a, rfl, h2, h3⟩ := h
  cases p
  simp only [Buf.ofVec, Buf.mk.injEq]
  exact ⟨h2, funext h3⟩

theorem keep_filli {E : Eff} {s t : St α} (hs : Same E s t) {x : V} {p : Buf Int} {j : Nat → Int}
    (h : FillOn (s.l.iv x) p j) (e : E.iv x = false) : FillOn (t.l.iv x) p j := (hs.iv x e).symm ▸ h

theorem run_fill2 {n : Nat} {w : Work α} {h : Int} {et et' : Buf Int} {jt : Nat → Int} {A : Ell α}
    (hw : s.w = w) (hh : s.l.i .output_files_header = some h) (hd : c.dim = 2) (hx1 : 1 ≤ c.nx) (hy1 : 1 ≤ c.ny)
    (hf : FillOn (s.l.iv .elem_type) et jt) (hm : fillElemType c et = .ok et')
    (hA : ellInit2D w.A.cols.val w.A.vals.val c.dim c.nx c.ny = .ok A) :
    Gives (oRun env c (n + 2) .fill_elem_type s) (fun t => t.w = { w with A := A } ∧
      t.l.i .output_files_header = some h ∧ FillOn (t.l.iv .elem_type) et' jt) := by
  show Gives (o_fill_elem_type.exec env c (oRun env c (n + 1)) s) _
  unfold fillElemType at hm
  rw [if_pos hd] at hm
  have hbx : ∀ l : Loc α, (IExp.sub (.mem .nx) (.lit 1)).eval c l = .ok ((c.nx - 1 : Nat) : Int) := by
    intro l; exact ok_to (ev_isub (ev_imem _) (ev_ilit _)) (by simp only [GI.get]; omega)
  have hby : ∀ l : Loc α, (IExp.sub (.mem .ny) (.lit 1)).eval c l = .ok ((c.ny - 1 : Nat) : Int) := by
    intro l; exact ok_to (ev_isub (ev_imem _) (ev_ilit _)) (by simp only [GI.get]; omega)
  refine Gives.oite_pos (ok_to (ev_eqI (ev_imem _) (ev_ilit _)) (by simp [GI.get, hd])) ?_
  refine Gives.oseq (P := fun t => t.w = w ∧ t.l.i .output_files_header = some h ∧ FillOn (t.l.iv .elem_type) et' jt)
    (Gives.ofor (fun (p : Buf Int) t => t.w = w ∧ t.l.i .output_files_header = some h ∧ FillOn (t.l.iv .elem_type) p jt)
      (by intro _ _ _ h; exact h) (hbx _) hm ⟨hw, hh, hf⟩ ?_) ?_
  · rintro ex t a a' hk - hex ⟨hw, hh, hf⟩ hm
    refine (Gives.ofor (fun (p : Buf Int) t => t.w = w ∧ t.l.i .output_files_header = some h ∧
      t.l.i .ex = some (ex : Int) ∧ FillOn (t.l.iv .elem_type) p jt)
      (by intro _ _ _ h; exact h) (hby _) hm ⟨hw, hh, hex, hf⟩ ?_).mono fun t ht => ⟨ht.1, ht.2.1, ht.2.2.2⟩
    clear hw hh hex hf
    rintro ey t a a' hk' - hey ⟨hw, hh, hex, hf⟩ hm
    simp only [bind_ok_iff] at hm
    obtain ⟨ty, h1, h2⟩ := hm
    refine Gives.oseq (P := fun t => t.l.i .e = some ((gloElem3D c.nx c.ny ex ey 0 : Nat) : Int))
      (Gives.obase (Gives.setI ?_)) ?_
    · exact ok_to (ev_iadd (ev_iadd (ev_imul (ev_imul (ev_ilit _) (hbx _)) (hby _)) (ev_imul (ev_ivar hey) (hbx _)))
        (ev_ivar hex)) (by unfold gloElem3D; push_cast; ring)
    intro t hs he
    have hf := keep_filli hs hf rfl
    keep hs
    have hcall : Gives ((OStmt.call .get_elem_type2D [.i (.var .ex), .i (.var .ey), .ref .t_get_elem_type2D]).exec env c
        (oRun env c (n + 1)) t) (fun t => t.l.i .t_get_elem_type2D = some ty ∧ t.w = w) := by
      have hp : passAll c t Loc.none (oparams .get_elem_type2D)
          [.i (.var .ex), .i (.var .ey), .ref .t_get_elem_type2D] = .ok { (Loc.none : Loc α) with
          i := upd (upd (upd (Loc.none : Loc α).i .ex (some (ex : Int))) .ey (some (ey : Int))) .ret
            (t.l.i .t_get_elem_type2D) } := by
        simp only [oparams, passAll, passIn, ev_ivar hex, ev_ivar hey, M_bind_ok', M_pure]
      have hr := run_elem2D (env := env) (c := c) (n := n) (ex := ex) (ey := ey) (s := ⟨t.w, { (Loc.none : Loc α) with
        i := upd (upd (upd (Loc.none : Loc α).i .ex (some (ex : Int))) .ey (some (ey : Int))) .ret
          (t.l.i .t_get_elem_type2D) }⟩) rfl rfl
      rw [h1] at hr
      refine Gives.ocall (Q := fun t => t.l.i .ret = some ty ∧ t.w = w) ⟨_, hp,
        Gives.mono hr fun t ht => ⟨ht.1, ht.2.trans hw⟩⟩ ?_
      rintro r ⟨e1, e2⟩
      exact ⟨by simpa [passBack, passOut, oparams, upd] using e1, e2⟩
    refine Gives.oseq hcall ?_
    clear hcall
    clear hw
    rintro t hs ⟨hty, hw⟩
    have hf := keep_filli hs hf rfl
    keep hs
    refine (Gives.obase (Gives.fst hf (ev_ivar he) (ev_ivar hty) h2).same).mono ?_
    clear hf
    rintro t ⟨hs, hf, -⟩
    keep hs
    exact ⟨hw, hh, hex, hf⟩
  rintro t - ⟨hw, hh, hf⟩
  refine Gives.obase (Gives.call' (Q := _) (by
      refine ⟨_, by simp only [params, passAll, passIn, ev_imem, M_bind_ok', M_pure]; rfl, ?_⟩
      exact (run_init_2D (n := 5) _ _ rfl rfl rfl hx1 hy1 hA).runSame) ?_)
  rintro r ⟨hs, h1, h2, h3, h4, h5⟩
  have hrw : r.w = w := keep_w hs hw rfl
  refine ⟨?_, hh, hf⟩
  · show ({ r.w with A := ellOut r.w.A r.l } : Work α) = _
    rw [hrw]
    unfold ellOut
    rw [ofVec_fill h4, ofVec_fill h5, h1, h2, h3]
    simp only [Option.getD_some, Int.toNat_natCast]

theorem run_fill3 {n : Nat} {w : Work α} {h : Int} {et et' : Buf Int} {jt : Nat → Int} {A : Ell α}
    (hw : s.w = w) (hh : s.l.i .output_files_header = some h) (hd : c.dim = 3) (hx1 : 1 ≤ c.nx) (hy1 : 1 ≤ c.ny) (hz1 : 1 ≤ c.nz)
    (hf : FillOn (s.l.iv .elem_type) et jt) (hm : fillElemType c et = .ok et')
    (hA : ellInit3D w.A.cols.val w.A.vals.val c.dim c.nx c.ny c.nz = .ok A) :
    Gives (oRun env c (n + 2) .fill_elem_type s) (fun t => t.w = { w with A := A } ∧
      t.l.i .output_files_header = some h ∧ FillOn (t.l.iv .elem_type) et' jt) := by
  show Gives (o_fill_elem_type.exec env c (oRun env c (n + 1)) s) _
  unfold fillElemType at hm
  rw [if_neg (by omega)] at hm
  have hbx : ∀ l : Loc α, (IExp.sub (.mem .nx) (.lit 1)).eval c l = .ok ((c.nx - 1 : Nat) : Int) := by
    intro l; exact ok_to (ev_isub (ev_imem _) (ev_ilit _)) (by simp only [GI.get]; omega)
  have hby : ∀ l : Loc α, (IExp.sub (.mem .ny) (.lit 1)).eval c l = .ok ((c.ny - 1 : Nat) : Int) := by
    intro l; exact ok_to (ev_isub (ev_imem _) (ev_ilit _)) (by simp only [GI.get]; omega)
  have hbz : ∀ l : Loc α, (IExp.sub (.mem .nz) (.lit 1)).eval c l = .ok ((c.nz - 1 : Nat) : Int) := by
    intro l; exact ok_to (ev_isub (ev_imem _) (ev_ilit _)) (by simp only [GI.get]; omega)
  refine Gives.oite_neg (ok_to (ev_eqI (ev_imem _) (ev_ilit _)) (by simp [GI.get, hd])) ?_
  refine Gives.oite_pos (ok_to (ev_eqI (ev_imem _) (ev_ilit _)) (by simp [GI.get, hd])) ?_
  refine Gives.oseq (P := fun t => t.w = w ∧ t.l.i .output_files_header = some h ∧ FillOn (t.l.iv .elem_type) et' jt)
    (Gives.ofor (fun (p : Buf Int) t => t.w = w ∧ t.l.i .output_files_header = some h ∧ FillOn (t.l.iv .elem_type) p jt)
      (by intro _ _ _ h; exact h) (hbx _) hm ⟨hw, hh, hf⟩ ?_) ?_
  · rintro ex t a a' hk - hex ⟨hw, hh, hf⟩ hm
    refine (Gives.ofor (fun (p : Buf Int) t => t.w = w ∧ t.l.i .output_files_header = some h ∧
      t.l.i .ex = some (ex : Int) ∧ FillOn (t.l.iv .elem_type) p jt)
      (by intro _ _ _ h; exact h) (hby _) hm ⟨hw, hh, hex, hf⟩ ?_).mono fun t ht => ⟨ht.1, ht.2.1, ht.2.2.2⟩
    clear hw hh hex hf
    rintro ey t a a' hk' - hey ⟨hw, hh, hex, hf⟩ hm
    refine (Gives.ofor (fun (p : Buf Int) t => t.w = w ∧ t.l.i .output_files_header = some h ∧
      t.l.i .ex = some (ex : Int) ∧ t.l.i .ey = some (ey : Int) ∧ FillOn (t.l.iv .elem_type) p jt)
      (by intro _ _ _ h; exact h) (hbz _) hm ⟨hw, hh, hex, hey, hf⟩ ?_).mono fun t ht =>
        ⟨ht.1, ht.2.1, ht.2.2.1, ht.2.2.2.2⟩
    clear hw hh hex hey hf
    rintro ez t a a' hk' - hez ⟨hw, hh, hex, hey, hf⟩ hm
    simp only [bind_ok_iff] at hm
    obtain ⟨ty, h1, h2⟩ := hm
    refine Gives.oseq (P := fun t => t.l.i .e = some ((gloElem3D c.nx c.ny ex ey ez : Nat) : Int))
      (Gives.obase (Gives.setI ?_)) ?_
    · exact ok_to (ev_iadd (ev_iadd (ev_imul (ev_imul (ev_ivar hez) (hbx _)) (hby _)) (ev_imul (ev_ivar hey) (hbx _)))
        (ev_ivar hex)) (by unfold gloElem3D; push_cast; ring)
    intro t hs he
    have hf := keep_filli hs hf rfl
    keep hs
    have hcall : Gives ((OStmt.call .get_elem_type3D [.i (.var .ex), .i (.var .ey), .i (.var .ez), .ref .t_get_elem_type3D]).exec env c
        (oRun env c (n + 1)) t) (fun t => t.l.i .t_get_elem_type3D = some ty ∧ t.w = w) := by
      have hp : passAll c t Loc.none (oparams .get_elem_type3D)
          [.i (.var .ex), .i (.var .ey), .i (.var .ez), .ref .t_get_elem_type3D] = .ok { (Loc.none : Loc α) with
          i := upd (upd (upd (upd (Loc.none : Loc α).i .ex (some (ex : Int))) .ey (some (ey : Int))) .ez (some (ez : Int))) .ret
            (t.l.i .t_get_elem_type3D) } := by
        simp only [oparams, passAll, passIn, ev_ivar hex, ev_ivar hey, ev_ivar hez, M_bind_ok', M_pure]
      have hr := run_elem3D (env := env) (c := c) (n := n) (ex := ex) (ey := ey) (ez := ez) (s := ⟨t.w, { (Loc.none : Loc α) with
        i := upd (upd (upd (upd (Loc.none : Loc α).i .ex (some (ex : Int))) .ey (some (ey : Int))) .ez (some (ez : Int))) .ret
          (t.l.i .t_get_elem_type3D) }⟩) rfl rfl rfl
      rw [h1] at hr
      refine Gives.ocall (Q := fun t => t.l.i .ret = some ty ∧ t.w = w) ⟨_, hp,
        Gives.mono hr fun t ht => ⟨ht.1, ht.2.trans hw⟩⟩ ?_
      rintro r ⟨e1, e2⟩
      exact ⟨by simpa [passBack, passOut, oparams, upd] using e1, e2⟩
    refine Gives.oseq hcall ?_
    clear hcall
    clear hw
    rintro t hs ⟨hty, hw⟩
    have hf := keep_filli hs hf rfl
    keep hs
    refine (Gives.obase (Gives.fst hf (ev_ivar he) (ev_ivar hty) h2).same).mono ?_
    clear hf
    rintro t ⟨hs, hf, -⟩
    keep hs
    exact ⟨hw, hh, hex, hey, hf⟩
  rintro t - ⟨hw, hh, hf⟩
  refine Gives.obase (Gives.call' (Q := _) (by
      refine ⟨_, by simp only [params, passAll, passIn, ev_imem, M_bind_ok', M_pure]; rfl, ?_⟩
      exact (run_init_3D (n := 5) _ _ rfl rfl rfl rfl hx1 hy1 hz1 hA).runSame) ?_)
  rintro r ⟨hs, h1, h2, h3, h4, h5⟩
  have hrw : r.w = w := keep_w hs hw rfl
  refine ⟨?_, hh, hf⟩
  · show ({ r.w with A := ellOut r.w.A r.l } : Work α) = _
    rw [hrw]
    unfold ellOut
    rw [ofVec_fill h4, ofVec_fill h5, h1, h2, h3]
    simp only [Option.getD_some, Int.toNat_natCast]

/-! ## The constructor -/

theorem construct_parts {a : Args α} (ha : a.Ok) (j : Junk α) :
    ∃ et A, fillElemType (mkCfg a j ⟨0, j.elemType⟩) ⟨(mkCfg a j ⟨0, j.elemType⟩).nelem, j.elemType⟩ = .ok et ∧
      (a.dim = 2 → ellInit2D j.cols j.vals a.dim (mkCfg a j et).nx (mkCfg a j et).ny = .ok A) ∧
      (a.dim = 3 → ellInit3D j.cols j.vals a.dim (mkCfg a j et).nx (mkCfg a j et).ny (mkCfg a j et).nz = .ok A) ∧
      (mkCfg a j et).Ok ∧ Work.Ok (mkCfg a j et) (startWork (mkCfg a j et) j A) ∧
      ∀ env : Env α, construct env a j = (calcCtanLin env (mkCfg a j et) j.ctanLin
        (startWork (mkCfg a j et) j A)).bind fun r =>
          .ok { cfg := { mkCfg a j et with ctanLin := r.ctan }, work := r.work, gauss := [],
                header := false } := by
  obtain ⟨et, h1, h2, -⟩ := fillElemType_eq (c := mkCfg a j ⟨0, j.elemType⟩) ha.micro ha.dim
    (et := ⟨(mkCfg a j ⟨0, j.elemType⟩).nelem, j.elemType⟩) rfl
  have hc : (mkCfg a j et).Ok := by
    refine ⟨ha.dim, ha.nx, ha.ny, fun hd => ?_, fun hd => ?_, h2, ha.micro⟩
    · have hd : a.dim = 2 := hd
      simp [mkCfg, hd]
    · have hd : a.dim = 3 := hd
      simp [mkCfg, hd]
      exact ha.nz hd
  have key : ∀ A, (if a.dim = 2 then ellInit2D j.cols j.vals a.dim (mkCfg a j et).nx (mkCfg a j et).ny
      else ellInit3D j.cols j.vals a.dim (mkCfg a j et).nx (mkCfg a j et).ny (mkCfg a j et).nz) = .ok A →
      ∀ env : Env α, construct env a j = (calcCtanLin env (mkCfg a j et) j.ctanLin
        (startWork (mkCfg a j et) j A)).bind fun r =>
          .ok { cfg := { mkCfg a j et with ctanLin := r.ctan }, work := r.work, gauss := [],
                header := false } := by
    intro A hA env
    unfold construct
    rw [if_neg (not_not.mpr ha.dim), if_neg (not_not.mpr ha.micro)]
    simp only []
    rw [h1, M_bind_ok']
    split
    · rename_i h
      rw [if_pos (show a.dim = 2 from h)] at hA
      rw [show ellInit2D j.cols j.vals (mkCfg a j et).dim _ _ = _ from hA, M_bind_ok']
      rfl
    · rename_i h
      rw [if_neg (show ¬a.dim = 2 from h)] at hA
      rw [show ellInit3D j.cols j.vals (mkCfg a j et).dim _ _ _ = _ from hA, M_bind_ok']
      rfl
  rcases ha.dim with hd | hd
  · obtain ⟨A, e1, e2⟩ := pattern2_init (α := α) j.cols j.vals (nF := 2) hc.nx hc.ny
    rw [← hd] at e1
    exact ⟨et, A, h1, fun _ => e1, fun h => absurd (hd.symm.trans h) (by omega), hc, ⟨rfl, rfl, rfl, rfl, rfl, rfl, rfl, fun _ => e2,
      fun h => absurd (hd.symm.trans h) (by omega)⟩, key A (by rw [if_pos hd]; exact e1)⟩
  · obtain ⟨A, e1, e2⟩ := pattern3_init (α := α) j.cols j.vals (nF := 3) hc.nx hc.ny (hc.nz3 hd)
    rw [← hd] at e1
    exact ⟨et, A, h1, fun h => absurd (hd.symm.trans h) (by omega), fun _ => e1, hc, ⟨rfl, rfl, rfl, rfl, rfl, rfl, rfl,
      fun h => absurd (hd.symm.trans h) (by omega), fun _ => e2⟩, key A (by rw [if_neg (by omega)]; exact e1)⟩

theorem ctorText_eq (L : LitLaws α) (env : Env α) {a : Args α} (ha : a.Ok) (j : Junk α) (f : Files α) :
    ctorText env a j f = constructF env a j f := by
  obtain ⟨et, A, h1, h2, h3, hc, hw, hcons⟩ := construct_parts ha j
  unfold constructF
  rw [hcons env]
  obtain ⟨s1, r1, w1, c1, o1, v1, i1⟩ := run_k_init L (a := a) j (by have := ha.nx; omega) (by have := ha.ny; omega)
    (fun h => by have := ha.nz (by rcases ha.dim with h' | h' <;> omega); omega)
  obtain ⟨sw, sl⟩ := s1
  dsimp only at w1 c1 o1 v1 i1
  subst w1
  obtain ⟨⟨s2, F2, u2⟩, r2, w2, e2, o2, m2, f2, g2⟩ := run_f_ctor (c := { mkCfg a j ⟨0, j.elemType⟩ with mats := j.mats }) L env
    (ocall := oRun env { mkCfg a j ⟨0, j.elemType⟩ with mats := j.mats } 0) (gs := []) (call := fun _ _ => .error .fuel)
    (a := a) (j := j) (F := f) ha.dim ha.micro v1 i1 o1
  dsimp only at w2 e2 o2 m2 f2 g2
  have hfill : Gives (oRun env (mkCfg a j ⟨0, j.elemType⟩) 3 .fill_elem_type s2) (fun t =>
      t.w = startWork (mkCfg a j et) j A ∧ t.l.i .output_files_header = some 0 ∧
      FillOn (t.l.iv .elem_type) et j.elemType) := by
    have hf : FillOn (s2.l.iv .elem_type) ⟨(mkCfg a j ⟨0, j.elemType⟩).nelem, j.elemType⟩ j.elemType :=
      ⟨_, e2, rfl, fun _ => rfl⟩
    rcases ha.dim with hd | hd
    · exact run_fill2 (c := mkCfg a j ⟨0, j.elemType⟩) (n := 1) w2 o2 hd (by have := hc.nx; exact le_trans (by omega) this)
        (by have := hc.ny; exact le_trans (by omega) this) hf h1 (h2 hd)
    · exact run_fill3 (c := mkCfg a j ⟨0, j.elemType⟩) (n := 1) w2 o2 hd (by have := hc.nx; exact le_trans (by omega) this)
        (by have := hc.ny; exact le_trans (by omega) this) (by have := hc.nz3 hd; exact le_trans (by omega) this)
        hf h1 (h3 hd)
  obtain ⟨s3, r3, w3, o3, f3⟩ := hfill
  have hlin := run_calc_ctan_lin (env := env) (c := mkCfg a j et) (s := ⟨s3.w, { s3.l with
    v := upd s3.l.v .ctan_lin (some ⟨36, fun q => some (j.ctanLin q)⟩) }⟩) L hc hw w3 (S := fun _ => True)
    (ctan := j.ctanLin) ⟨⟨36, fun q => some (j.ctanLin q)⟩, rfl, le_rfl, fun _ _ => rfl⟩ 1
  unfold ctorText
  rw [r1, M_bind_ok', c1, M_bind_ok', r2, M_bind_ok', m2]
  show ((oRun env (mkCfg a j ⟨0, j.elemType⟩) 3 .fill_elem_type s2) >>= _) = _
  rw [r3, M_bind_ok', o3]
  rw [show Buf.ofVec ⟨0, j.elemType⟩ (s3.l.iv .elem_type) = et from ofVec_fill (b := ⟨0, j.elemType⟩) f3]
  simp only [need, M_bind_ok']
  show ((oRun env (mkCfg a j et) 3 .calc_ctan_lin ⟨s3.w, { s3.l with
    v := upd s3.l.v .ctan_lin (some ⟨36, fun q => some (j.ctanLin q)⟩) }⟩) >>= _) = _
  cases hz : calcCtanLin env (mkCfg a j et) j.ctanLin (startWork (mkCfg a j et) j A) with
  | error e =>
    rw [hz] at hlin
    rw [show oRun env _ 3 .calc_ctan_lin _ = _ from hlin]
    rfl
  | ok z =>
    rw [hz] at hlin
    obtain ⟨t, r4, w4, -, v, a1, a2, a3⟩ := hlin
    rw [show oRun env _ 3 .calc_ctan_lin _ = _ from r4, M_bind_ok', a1, w4]
    have : arrOut j.ctanLin (some v) = z.ctan := funext fun q => by simp [arrOut, a3 q (.inl trivial)]
    rw [this, f2, g2]
    have hm : matLines (fun i => mkMaterial (fun k => a.params (i * 10 + k)) (a.matTypes i) (j.mats i))
        = matLines (mkCfg a j et).mats := matLines_congr fun i hi => by
          show _ = (if i < 2 then _ else _)
          rw [if_pos hi]
    rw [hm]
    rfl

theorem ctorText_all (L : LitLaws α) (env : Env α) {a : Args α} (hx : 2 ≤ a.size 0) (hy : 2 ≤ a.size 1)
    (hz : a.dim ≠ 2 → 2 ≤ a.size 2) (j : Junk α) (f : Files α) : ctorText env a j f = constructF env a j f := by
  by_cases hd : a.dim = 2 ∨ a.dim = 3
  · by_cases hm : a.microType = 0 ∨ a.microType = 1
    · exact ctorText_eq L env ⟨hd, hm, hx, hy, fun h => hz (by omega)⟩ j f
    · obtain ⟨⟨sw, sl⟩, r1, w1, c1, -⟩ := run_k_init L (a := a) j (by omega) (by omega) (fun h => by have := hz h; omega)
      dsimp only at w1 c1
      subst w1
      unfold ctorText
      rw [r1, M_bind_ok', c1, M_bind_ok', f_ctor_micro env hd hm]
      simp only [constructF, construct, hd, hm, not_true, not_false_iff, if_true, if_false]
      rfl
  · obtain ⟨⟨sw, sl⟩, r1, w1, c1, -⟩ := run_k_init L (a := a) j (by omega) (by omega) (fun h => by have := hz h; omega)
    dsimp only at w1 c1
    subst w1
    unfold ctorText
    rw [r1, M_bind_ok', c1, M_bind_ok', f_ctor_dim env hd]
    simp only [constructF, construct, hd, not_false_iff, if_true]
    rfl

end Verif.Text
