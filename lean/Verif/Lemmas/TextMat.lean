import Verif.Lemmas.TextElem

/-!
# The source text of the element matrices computes the element matrices of the model
-/

namespace Verif.Text

variable {α : Type} [Scalar α] {c : Cfg α} {n : Nat}

set_option hygiene false in
/-- One assignment to `dsh`. -/
local macro "sd2" k:num r:num : tactic => `(tactic|
  (refine Gives.seq (Gives.st2g $k $r (hds.congr fun _ _ h => ⟨h, rfl⟩) rfl rfl (by omega)
      (by omega) (by
      evs
      simp only [L.ofInt1]
      rfl)) ?_
   intro s hs hds
   keep hs))

set_option hygiene false in
/-- One assignment to `bmat`. -/
local macro "sb2" v:num d:num : tactic => `(tactic|
  (refine Gives.seq (Gives.st2g $v (k * 2 + $d) hP rfl (by idx) (by omega) (by omega) (by
      evs
      have h1 : (k * 2 + $d) / 2 = k := by omega
      have h2 : (k * 2 + $d) % 2 = $d := by omega
      simp only [L.ofInt0, bmat2D, h1, h2]
      rfl)) ?_
   intro s hs hP
   keep hs))

set_option hygiene false in
/-- One assignment to `ctan`. -/
local macro "sc2" k:num r:num : tactic => `(tactic|
  (refine Gives.seq (Gives.st2g $k $r hct rfl rfl (by omega) (by omega) (by
      evs
      simp [L.ofInt0, L.ofInt1, ofInt_two, ctanBase])) ?_
   intro s hs hct
   keep hs))

theorem run_get_ctan_plast_pert (L : LitLaws α) {s : St α} {w : Work α} {ex ey ez gp : Nat}
    {r : CtanOut α} {g : Nat → Nat → α} (hw : s.w = w) (hd : c.dim = 3)
    (hm : getCtanPlastPert c w.u w.varsOld w.varsNew ex ey ez gp = .ok r)
    (hx : 1 ≤ c.nx) (hy : 1 ≤ c.ny)
    (hex : s.l.i .ex = some (ex : Int)) (hey : s.l.i .ey = some (ey : Int))
    (hez : s.l.i .ez = some (ez : Int)) (hgp : s.l.i .gp = some (gp : Int)) (hg8 : gp < 8)
    (hct : MtxOn (s.l.m .ctan) 6 6 (fun _ _ => False) g) :
    Gives (run c (n + 4) .get_ctan_plast_pert s) (fun t =>
      MtxOn (t.l.m .ctan) 6 6 (fun p q => p < 6 ∧ q < 6) r.ctan ∧
      t.w = { w with varsNew := r.varsNew }) := by
  show Gives (t_get_ctan_plast_pert.exec c (run c (n + 3)) s) _
  unfold getCtanPlastPert at hm
  simp only [bind_ok_iff] at hm
  obtain ⟨eps, heps, s0, hs0, hm⟩ := hm
  refine Gives.seq (Gives.declI) ?_
  intro s hs _; keep hs
  refine Gives.seq (Gives.declV (fun _ => 0)) ?_
  intro s hs ht0; keep hs
  refine Gives.seq (Gives.declV (fun _ => 0)) ?_
  intro s hs htp; keep hs
  refine Gives.seq (Gives.declV (fun _ => 0)) ?_
  intro s hs he0; keep hs
  refine Gives.seq (Gives.declV (fun _ => 0)) ?_
  intro s hs hsp; keep hs
  refine Gives.seq (Gives.setD (ev_lit _ _ _)) ?_
  intro s hs hde; keep hs
  refine Gives.seq (Gives.call' (P := fun t =>
      VecOn (t.l.v .strain_0) 6 (· < 6) eps ∧ t.w = w) (Q := _) ?_ (fun _ h => h)) ?_
  · refine ⟨_, by simp only [params, passAll, passIn, ev_ivar hex, ev_ivar hey, ev_ivar hez, ev_ivar hgp, M_bind_ok', M_pure]; rfl, ?_⟩
    exact run_get_strain3D L hw hd heps rfl rfl rfl rfl hg8 he0
  rintro s hs ⟨he0, -⟩; keep hs
  refine Gives.seq (Gives.call' (P := fun t =>
      VecOn (t.l.v .strain_0) 6 (· < 6) eps ∧
      t.l.i .non_linear = some (if s0.nl = true then 1 else 0) ∧
      VecOn (t.l.v .stress_0) 6 (· < 6) s0.stress ∧
      t.w = { w with varsNew := s0.varsNew }) (Q := _) ?_ (fun _ h => h)) ?_
  · refine ⟨_, by simp only [params, passAll, passIn, ev_ivar hex, ev_ivar hey, ev_ivar hez, ev_ivar hgp, M_bind_ok', M_pure]; rfl, ?_⟩
    exact run_get_stress3D (w := w) L hw hs0 hx hy rfl rfl rfl rfl he0 ht0
  rintro s hs ⟨he0, -, ht0, hw⟩; keep hs
  refine ((Gives.simK (N := 6) (fun i (r : CtanOut α) t =>
      MtxOn (t.l.m .ctan) 6 6 (fun p q => p < 6 ∧ q < i) r.ctan ∧
      VecOn (t.l.v .strain_pert) 6 (fun _ => False) (fun _ => (0 : α)) ∧
      VecOn (t.l.v .stress_pert) 6 (fun _ => False) (fun _ => (0 : α)) ∧
      t.w = { w with varsNew := r.varsNew }) (by intro _ _ _ _ h; exact h) rfl hm
      ⟨hct.congr fun _ _ h => by omega, hsp, htp, hw⟩ ?_).same).mono ?_
  · rintro i t ⟨ct, vn⟩ r' hi6 hs hi ⟨hct, hsp, htp, hw⟩ hf
    keep hs
    replace hct : MtxOn (t.l.m .ctan) 6 6 (fun p q => p < 6 ∧ q < i) ct := hct
    replace hw : t.w = { w with varsNew := vn } := hw
    rw [bind_ok_iff] at hf
    obtain ⟨sp, hsp', hf⟩ := hf
    cases hf
    refine Gives.seq (Gives.map (m := 0) (N := 6) eps hsp (by omega) (by omega) rfl ?_) ?_
    · intro k t _ hk hs hi hP
      keep hs
      evs
      simp
    intro s hs hsp; keep hs
    refine Gives.seq (Gives.st1 (k := i) hsp (ev_ivar hi) rfl (by omega)
      (y := eps i + 1.0e-8) ?_) ?_
    · evs
      simp [hi6]
    intro s hs hsp; keep hs
    replace hsp : VecOn (s.l.v .strain_pert) 6 (· < 6)
        (fun j => if j = i then eps j + 1.0e-8 else eps j) :=
      hsp.congr le_rfl fun q hq => ⟨by simp only [false_or]; omega, by
        by_cases e : q = i
        · subst e; simp
        · simp [e]; omega⟩
    refine Gives.seq (Gives.call' (P := fun t =>
        VecOn (t.l.v .strain_pert) 6 (· < 6) (fun j => if j = i then eps j + 1.0e-8 else eps j) ∧
        t.l.i .non_linear = some (if sp.nl = true then 1 else 0) ∧
        VecOn (t.l.v .stress_pert) 6 (· < 6) sp.stress ∧
        t.w = { w with varsNew := sp.varsNew }) (Q := _) ?_ (fun _ h => h)) ?_
    · refine ⟨_, by simp only [params, passAll, passIn, ev_ivar hex, ev_ivar hey, ev_ivar hez, ev_ivar hgp, M_bind_ok', M_pure]; rfl, ?_⟩
      exact run_get_stress3D (w := { w with varsNew := vn }) L hw hsp' hx hy rfl rfl rfl rfl hsp htp
    rintro s hs ⟨hsp, -, htp, hw⟩; keep hs
    refine ((Gives.each2 (m := 0) (N := 6)
      (F := fun _ p q => if q = i then (sp.stress p - s0.stress p) / 1.0e-8 else ct p q)
      (S := fun l p q => (p < 6 ∧ q < i) ∨ (p < l ∧ q = i))
      (hct.congr fun p q h => ⟨by omega, by simp; omega⟩) (by omega) rfl ?_).same).mono ?_
    · intro j t _ hj hs hj' hP
      keep hs
      refine (Gives.st2g j i hP (ev_ivar hj') (ev_ivar hi) hj (by omega) (by
        evs
        simp)).mono ?_
      exact fun t h => h.congr fun p q h => ⟨by omega, rfl⟩
    · rintro t ⟨hs, h⟩
      keep hs
      exact ⟨h.congr fun p q h => ⟨by omega, rfl⟩, hsp.congr le_rfl fun _ h => h.elim,
        htp.congr le_rfl fun _ h => h.elim, hw⟩
  · rintro t ⟨hs, h⟩
    exact ⟨h.1, h.2.2.2⟩

theorem run_get_ctan_plast_sec (L : LitLaws α) {s : St α} {w : Work α} {ex ey ez gp : Nat}
    {r : CtanOut α} {g : Nat → Nat → α} (hw : s.w = w) (hd : c.dim = 3)
    (hm : getCtanPlastSec c w.u w.varsOld w.varsNew ex ey ez gp = .ok r)
    (hx : 1 ≤ c.nx) (hy : 1 ≤ c.ny)
    (hex : s.l.i .ex = some (ex : Int)) (hey : s.l.i .ey = some (ey : Int))
    (hez : s.l.i .ez = some (ez : Int)) (hgp : s.l.i .gp = some (gp : Int)) (hg8 : gp < 8)
    (hct : MtxOn (s.l.m .ctan) 6 6 (fun _ _ => False) g) :
    Gives (run c (n + 4) .get_ctan_plast_sec s) (fun t =>
      MtxOn (t.l.m .ctan) 6 6 (fun p q => p < 6 ∧ q < 6) r.ctan ∧
      t.w = { w with varsNew := r.varsNew }) := by
  show Gives (t_get_ctan_plast_sec.exec c (run c (n + 3)) s) _
  unfold getCtanPlastSec at hm
  have hz : (OfScientific.ofScientific 0 true 1 : α) = 0 := L.zeroD
  simp only [bind_ok_iff] at hm
  obtain ⟨eps, heps, hm⟩ := hm
  refine Gives.seq (Gives.declI) ?_
  intro s hs _; keep hs
  refine Gives.seq (Gives.declV (fun _ => 0)) ?_
  intro s hs htp; keep hs
  refine Gives.seq (Gives.declV (fun _ => 0)) ?_
  intro s hs hsp; keep hs
  refine Gives.seq (Gives.declV (fun _ => 0)) ?_
  intro s hs he0; keep hs
  refine Gives.seq (Gives.setD (ev_lit _ _ _)) ?_
  intro s hs hde; keep hs
  refine Gives.seq (Gives.call' (P := fun t =>
      VecOn (t.l.v .strain_0) 6 (· < 6) eps ∧ t.w = w) (Q := _) ?_ (fun _ h => h)) ?_
  · refine ⟨_, by simp only [params, passAll, passIn, ev_ivar hex, ev_ivar hey, ev_ivar hez, ev_ivar hgp, M_bind_ok', M_pure]; rfl, ?_⟩
    exact run_get_strain3D L hw hd heps rfl rfl rfl rfl hg8 he0
  rintro s hs ⟨he0, -⟩; keep hs
  refine ((Gives.simK (N := 6) (fun i (r : CtanOut α) t =>
      MtxOn (t.l.m .ctan) 6 6 (fun p q => p < 6 ∧ q < i) r.ctan ∧
      VecOn (t.l.v .strain_pert) 6 (fun _ => False) (fun _ => (0 : α)) ∧
      VecOn (t.l.v .stress_pert) 6 (fun _ => False) (fun _ => (0 : α)) ∧
      t.w = { w with varsNew := r.varsNew }) (by intro _ _ _ _ h; exact h) rfl hm
      ⟨hct.congr fun _ _ h => by omega, hsp, htp, hw⟩ ?_).same).mono ?_
  · rintro i t ⟨ct, vn⟩ r' hi6 hs hi ⟨hct, hsp, htp, hw⟩ hf
    keep hs
    replace hct : MtxOn (t.l.m .ctan) 6 6 (fun p q => p < 6 ∧ q < i) ct := hct
    replace hw : t.w = { w with varsNew := vn } := hw
    rw [bind_ok_iff] at hf
    obtain ⟨sp, hsp', hf⟩ := hf
    cases hf
    refine Gives.seq (Gives.map (m := 0) (N := 6) (fun _ => (0 : α)) hsp (by omega) (by omega)
      rfl ?_) ?_
    · intro k t _ hk hs hi hP
      keep hs
      exact ok_to (ev_lit _ _ _) hz
    intro s hs hsp; keep hs
    have hb : (BExp.ltD (.lit (nat_lit 10) true (nat_lit 8)) (.abs (.rd1 .strain_0 (.var .i)))).eval
        c s = .ok (Scalar.lt 1.0e-7 (Scalar.abs (eps i))) := by
      exact ev_ltD (ev_lit _ _ _) (y := Scalar.abs (eps i)) (by evs; simp)
    generalize hp : (if Scalar.lt 1.0e-7 (Scalar.abs (eps i)) = true then eps i else 1.0e-8) = p
      at *
    refine Gives.seq (P := fun t => VecOn (t.l.v .strain_pert) 6 (· < 6)
      (fun j => if j = i then p else 0)) ?_ ?_
    · cases hlt : Scalar.lt (1.0e-7 : α) (Scalar.abs (eps i))
      · refine Gives.ite_neg (hb.trans (by rw [hlt])) ?_
        rw [hlt] at hp
        refine (Gives.st1 (k := i) hsp (ev_ivar hi) rfl (by omega) (ev_var hde)).mono ?_
        refine fun t h => h.congr le_rfl fun q hq => ⟨by simp only [false_or]; omega, ?_⟩
        by_cases e : q = i
        · subst e; simpa using hp
        · simp [e]
      · refine Gives.ite_pos (hb.trans (by rw [hlt])) ?_
        rw [hlt] at hp
        refine (Gives.st1 (k := i) hsp (ev_ivar hi) rfl (by omega) (y := p) (by
          evs
          simpa using hp)).mono ?_
        refine fun t h => h.congr le_rfl fun q hq => ⟨by simp only [false_or]; omega, ?_⟩
        by_cases e : q = i
        · subst e; simp
        · simp [e]
    intro s hs hsp; keep hs
    refine Gives.seq (Gives.call' (P := fun t =>
        VecOn (t.l.v .strain_pert) 6 (· < 6) (fun j => if j = i then p else 0) ∧
        t.l.i .non_linear = some (if sp.nl = true then 1 else 0) ∧
        VecOn (t.l.v .stress_pert) 6 (· < 6) sp.stress ∧
        t.w = { w with varsNew := sp.varsNew }) (Q := _) ?_ (fun _ h => h)) ?_
    · refine ⟨_, by simp only [params, passAll, passIn, ev_ivar hex, ev_ivar hey, ev_ivar hez, ev_ivar hgp, M_bind_ok', M_pure]; rfl, ?_⟩
      exact run_get_stress3D (w := { w with varsNew := vn }) L hw hsp' hx hy rfl rfl rfl rfl hsp htp
    rintro s hs ⟨hsp, -, htp, hw⟩; keep hs
    refine ((Gives.each2 (m := 0) (N := 6)
      (F := fun _ a q => if q = i then sp.stress a / p else ct a q)
      (S := fun l p q => (p < 6 ∧ q < i) ∨ (p < l ∧ q = i))
      (hct.congr fun p q h => ⟨by omega, by simp; omega⟩) (by omega) rfl ?_).same).mono ?_
    · intro j t _ hj hs hj' hP
      keep hs
      refine (Gives.st2g j i hP (ev_ivar hj') (ev_ivar hi) hj (by omega) (by
        evs
        simp)).mono ?_
      exact fun t h => h.congr fun p q h => ⟨by omega, rfl⟩
    · rintro t ⟨hs, h⟩
      keep hs
      exact ⟨h.congr fun p q h => ⟨by omega, rfl⟩, hsp.congr le_rfl fun _ h => h.elim,
        htp.congr le_rfl fun _ h => h.elim, hw⟩
  · rintro t ⟨hs, h⟩
    exact ⟨h.1, h.2.2.2⟩

/-- The loops that assign the elastic matrix `ctan`: /repo/src/assembly.cpp:475-487, 554-566. -/
def ctanLoops : Stmt :=
  .for .i (.lit 0) (.lit 6) (
    .for .j (.lit 0) (.lit 6) (
      .st2 .ctan (.var .i) (.var .j) (.lit (nat_lit 0) true (nat_lit 1)))) ;;
  .for .i (.lit 0) (.lit 3) (
    .for .j (.lit 0) (.lit 3) (
      .st2 .ctan (.var .i) (.var .j) (.add (.rd2 .ctan (.var .i) (.var .j)) (.var .material_lam)))) ;;
  .for .i (.lit 0) (.lit 3) (
    .st2 .ctan (.var .i) (.var .i) (.add (.rd2 .ctan (.var .i) (.var .i))
      (.mul (.ofInt (.lit 2)) (.var .material_mu)))) ;;
  .for .i (.lit 3) (.lit 6) (
    .st2 .ctan (.var .i) (.var .i) (.add (.rd2 .ctan (.var .i) (.var .i)) (.var .material_mu)))

theorem Gives.ctanLoops (L : LitLaws α) {s : St α} {m : Material α} {g : Nat → Nat → α}
    (hmu : s.l.d .material_mu = some m.mu) (hla : s.l.d .material_lam = some m.lambda)
    (hct : MtxOn (s.l.m .ctan) 6 6 (fun _ _ => False) g) :
    Gives (ctanLoops.exec c (run c n) s)
      (fun t => MtxOn (t.l.m .ctan) 6 6 (fun p q => p < 6 ∧ q < 6) (ctan3D m)) := by
  have hz : (OfScientific.ofScientific 0 true 1 : α) = 0 := L.zeroD
  refine Gives.seq (Gives.each2 (m := 0) (N := 6) (F := fun _ _ _ => (0 : α))
    (S := fun k p q => p < k ∧ q < 6) (hct.congr fun p q h => by omega) (by omega) rfl ?_) ?_
  · intro k t _ hk hs hi hP
    keep hs
    refine (Gives.each2 (m := 0) (N := 6) (F := fun _ _ _ => (0 : α))
      (S := fun l p q => (p < k ∧ q < 6) ∨ (p = k ∧ q < l))
      (hP.congr fun p q h => ⟨by omega, rfl⟩) (by omega) rfl ?_).mono ?_
    · intro l t _ hl hs hj hP
      keep hs
      refine (Gives.st2g k l hP (ev_ivar hi) (ev_ivar hj) hk hl
        (ok_to (ev_lit _ _ _) hz)).mono ?_
      exact fun t h => h.congr fun p q h => ⟨by omega, rfl⟩
    · exact fun t h => h.congr fun p q h => ⟨by omega, rfl⟩
  intro s hs hct; keep hs
  let c1 : Nat → Nat → α := fun p q => if p < 3 ∧ q < 3 then 0 + m.lambda else 0
  refine Gives.seq (Gives.each2 (m := 0) (N := 3)
    (F := fun k p q => if p < k ∧ q < 3 then 0 + m.lambda else (0 : α))
    (S := fun _ p q => p < 6 ∧ q < 6) (hct.congr fun p q h => ⟨h, by simp⟩) (by omega) rfl ?_) ?_
  · intro k t _ hk hs hi hP
    keep hs
    refine (Gives.each2 (m := 0) (N := 3)
      (F := fun l p q => if (p < k ∧ q < 3) ∨ (p = k ∧ q < l) then 0 + m.lambda else (0 : α))
      (S := fun _ p q => p < 6 ∧ q < 6)
      (hP.congr fun p q h => ⟨h, by simp⟩) (by omega) rfl ?_).mono ?_
    · intro l t _ hl hs hj hP
      keep hs
      refine (Gives.st2 (k := k) (r := l) hP (ev_ivar hi) (ev_ivar hj) rfl rfl (by omega)
        (by omega) (y := 0 + m.lambda) ?_).mono ?_
      · evs
        simp
      · intro t h
        refine h.congr fun p q hpq => ⟨Or.inl hpq, ?_⟩
        by_cases e : p = k ∧ q = l
        · obtain ⟨rfl, rfl⟩ := e; simp
        · rw [if_neg e]
          have : (p < k ∧ q < 3 ∨ p = k ∧ q < l + 1) ↔ (p < k ∧ q < 3 ∨ p = k ∧ q < l) := by omega
          simp only [this]
    · intro t h
      refine h.congr fun p q hpq => ⟨hpq, ?_⟩
      have : (p < k ∧ q < 3 ∨ p = k ∧ q < 3) ↔ (p < k + 1 ∧ q < 3) := by omega
      simp only [this]
  intro s hs hct; keep hs
  replace hct : MtxOn (s.l.m .ctan) 6 6 (fun p q => p < 6 ∧ q < 6) c1 := hct
  let c2 : Nat → Nat → α := fun p q => if p < 3 ∧ p = q then c1 p q + ((2 : Nat) : α) * m.mu
    else c1 p q
  refine Gives.seq (Gives.each2 (m := 0) (N := 3)
    (F := fun k p q => if p < k ∧ p = q then c1 p q + ((2 : Nat) : α) * m.mu else c1 p q)
    (S := fun _ p q => p < 6 ∧ q < 6) (hct.congr fun p q h => ⟨h, by simp⟩) (by omega) rfl ?_) ?_
  · intro k t _ hk hs hi hP
    keep hs
    refine (Gives.st2 (k := k) (r := k) hP (ev_ivar hi) (ev_ivar hi) rfl rfl (by omega)
      (by omega) (y := c1 k k + ((2 : Nat) : α) * m.mu) ?_).mono ?_
    · evs
      simp [ofInt_two]
    · intro t h
      refine h.congr fun p q hpq => ⟨Or.inl hpq, ?_⟩
      by_cases e : p = k ∧ q = k
      · obtain ⟨rfl, rfl⟩ := e; simp
      · rw [if_neg e]
        have : (p < k + 1 ∧ p = q) ↔ (p < k ∧ p = q) := by omega
        simp only [this]
  intro s hs hct; keep hs
  replace hct : MtxOn (s.l.m .ctan) 6 6 (fun p q => p < 6 ∧ q < 6) c2 := hct
  refine (Gives.each2 (m := 3) (N := 6)
    (F := fun k p q => if ¬ p < 3 ∧ p < k ∧ p = q then c2 p q + m.mu else c2 p q)
    (S := fun _ p q => p < 6 ∧ q < 6) (hct.congr fun p q h => ⟨h, by
      rw [if_neg]; omega⟩) (by omega) rfl ?_).mono ?_
  · intro k t hk3 hk hs hi hP
    keep hs
    refine (Gives.st2 (k := k) (r := k) hP (ev_ivar hi) (ev_ivar hi) rfl rfl (by omega)
      (by omega) (y := c2 k k + m.mu) ?_).mono ?_
    · evs
      simp
    · intro t h
      refine h.congr fun p q hpq => ⟨Or.inl hpq, ?_⟩
      by_cases e : p = k ∧ q = k
      · obtain ⟨rfl, rfl⟩ := e
        rw [if_pos ⟨rfl, rfl⟩, if_pos (by omega)]
      · rw [if_neg e]
        have : (¬ p < 3 ∧ p < k + 1 ∧ p = q) ↔ (¬ p < 3 ∧ p < k ∧ p = q) := by omega
        simp only [this]
  · intro t h
    refine h.congr fun p q hpq => ⟨hpq, ?_⟩
    have : (¬ p < 3 ∧ p < 6 ∧ p = q) ↔ (¬ p < 3 ∧ p = q) := by omega
    simp only [this, ctan3D, c2, c1]

theorem run_get_ctan_plast_exact (L : LitLaws α) {s : St α} {w : Work α} {ex ey ez gp : Nat}
    {r g : Nat → Nat → α} (hw : s.w = w) (hd : c.dim = 3)
    (hm : getCtanPlastExact c w.u ex ey ez gp = .ok r)
    (hx : 1 ≤ c.nx) (hy : 1 ≤ c.ny)
    (hex : s.l.i .ex = some (ex : Int)) (hey : s.l.i .ey = some (ey : Int))
    (hez : s.l.i .ez = some (ez : Int)) (hgp : s.l.i .gp = some (gp : Int)) (hg8 : gp < 8)
    (hct : MtxOn (s.l.m .ctan) 6 6 (fun _ _ => False) g) :
    Gives (run c (n + 3) .get_ctan_plast_exact s) (fun t =>
      MtxOn (t.l.m .ctan) 6 6 (fun p q => p < 6 ∧ q < 6) r ∧ t.w = w) := by
  show Gives (t_get_ctan_plast_exact.exec c (run c (n + 2)) s) _
  unfold getCtanPlastExact at hm
  simp only [bind_ok_iff, pure_ok_iff] at hm
  obtain ⟨eps, heps, m, hmat, rfl⟩ := hm
  refine Gives.seq (Gives.declV (fun _ => 0)) ?_
  intro s hs he0; keep hs
  refine Gives.seq (Gives.setI (k := ((gloElem3D c.nx c.ny ex ey ez : Nat) : Int)) (by idx)) ?_
  intro s hs hee; keep hs
  generalize gloElem3D c.nx c.ny ex ey ez = e at *
  refine Gives.seq (Gives.call' (P := fun t =>
      VecOn (t.l.v .strain) 6 (· < 6) eps ∧ t.w = w) (Q := _) ?_ (fun _ h => h)) ?_
  · refine ⟨_, by simp only [params, passAll, passIn, ev_ivar hex, ev_ivar hey, ev_ivar hez, ev_ivar hgp, M_bind_ok', M_pure]; rfl, ?_⟩
    exact run_get_strain3D L hw hd heps rfl rfl rfl rfl hg8 he0
  rintro s hs ⟨he0, -⟩; keep hs
  refine Gives.seq Gives.declMat ?_
  intro s hs _; keep hs
  refine Gives.seq (Gives.call' (P := fun t =>
      t.l.d .material_E = some m.E ∧ t.l.d .material_nu = some m.nu ∧
      t.l.d .material_Sy = some m.Sy ∧ t.l.d .material_Ka = some m.Ka ∧
      t.l.d .material_mu = some m.mu ∧ t.l.d .material_k = some m.k ∧
      t.l.d .material_lam = some m.lambda ∧
      t.l.i .material_plasticity = some (if m.plasticity = true then 1 else 0) ∧ t.w = w) (Q := _) ?_ (fun _ h => h)) ?_
  · refine ⟨_, by simp only [params, passAll, passIn, ev_ivar hee, M_bind_ok', M_pure]; rfl, ?_⟩
    exact run_get_material hw hmat rfl
  rintro s hs ⟨-, -, -, -, hmu, -, hla, -, -⟩; keep hs
  refine ((Gives.ctanLoops L hmu hla hct).same (a := ctanLoops)).mono ?_
  rintro t ⟨hs, h⟩
  keep hs
  exact ⟨h, hw⟩

theorem run_get_elem_mat2D (L : LitLaws α) {s : St α} {w : Work α} {ex ey : Nat}
    {r : Buf α} {g : Nat → α} (hw : s.w = w) (hd : c.dim = 2)
    (hm : getElemMat2D c ex ey = .ok r)
    (hx : 1 ≤ c.nx) (hy : 1 ≤ c.ny)
    (hex : s.l.i .ex = some (ex : Int)) (hey : s.l.i .ey = some (ey : Int))
    (hAe : VecOn (s.l.v .Ae) 64 (fun _ => False) g) :
    Gives (run c (n + 2) .get_elem_mat2D s) (fun t =>
      r.size = 64 ∧ VecOn (t.l.v .Ae) 64 (· < 64) r.val ∧ t.w = w) := by
  show Gives (t_get_elem_mat2D.exec c (run c (n + 1)) s) _
  unfold getElemMat2D at hm
  have hz : (OfScientific.ofScientific 0 true 1 : α) = 0 := L.zeroD
  rw [bind_ok_iff] at hm
  obtain ⟨m, hmat, hm⟩ := hm
  cases hm
  refine Gives.seq Gives.declD ?_
  intro s hs _; keep hs
  refine Gives.seq Gives.declD ?_
  intro s hs _; keep hs
  refine Gives.seq (Gives.declM (ctanBase m)) ?_
  intro s hs hct; keep hs
  refine Gives.seq Gives.declI ?_
  intro s hs _; keep hs
  refine Gives.seq (Gives.setI (k := ((gloElem3D c.nx c.ny ex ey 0 : Nat) : Int)) (by idx)) ?_
  intro s hs hee; keep hs
  generalize gloElem3D c.nx c.ny ex ey 0 = e at *
  refine Gives.seq Gives.declMat ?_
  intro s hs _; keep hs
  refine Gives.seq (Gives.call' (P := fun t =>
      t.l.d .material_E = some m.E ∧ t.l.d .material_nu = some m.nu ∧
      t.l.d .material_Sy = some m.Sy ∧ t.l.d .material_Ka = some m.Ka ∧
      t.l.d .material_mu = some m.mu ∧ t.l.d .material_k = some m.k ∧
      t.l.d .material_lam = some m.lambda ∧
      t.l.i .material_plasticity = some (if m.plasticity = true then 1 else 0) ∧ t.w = w)
    (Q := _) ?_ (fun _ h => h)) ?_
  · refine ⟨_, by simp only [params, passAll, passIn, ev_ivar hee, M_bind_ok', M_pure]; rfl, ?_⟩
    exact run_get_material hw hmat rfl
  rintro s hs ⟨h1, h2, -, -, -, -, -, h8, -⟩; keep hs
  refine Gives.seq (Gives.setD (ev_var h1)) ?_
  intro s hs hE; keep hs
  refine Gives.seq (Gives.setD (ev_var h2)) ?_
  intro s hs hnu; keep hs
  refine Gives.seq (Gives.setI (ev_ivar h8)) ?_
  intro s hs _; keep hs
  sc2 0 0; sc2 0 1; sc2 0 2
  sc2 1 0; sc2 1 1; sc2 1 2
  sc2 2 0; sc2 2 1; sc2 2 2
  refine Gives.seq (Gives.each2 (m := 0) (N := 3) (S := fun _ p q => p < 3 ∧ q < 3)
    (F := fun k p q => if p < k then ctan2D m p q else ctanBase m p q)
    (hct.congr fun p q ⟨hp, hq⟩ => ⟨by interval_cases p <;> interval_cases q <;> simp, by simp⟩)
    (by omega) (by idx) ?_) ?_
  · intro k t _ hk hs hi hP
    keep hs
    refine (Gives.each2 (m := 0) (N := 3) (S := fun _ p q => p < 3 ∧ q < 3)
      (F := fun l p q => if p < k ∨ (p = k ∧ q < l) then ctan2D m p q else ctanBase m p q)
      (hP.congr fun p q h => ⟨h, by simp⟩) (by omega) (by idx) ?_).mono ?_
    · intro l t _ hl hs hj hP
      keep hs
      refine (Gives.st2 (k := k) (r := l) hP (ev_ivar hi) (ev_ivar hj) rfl rfl (by omega)
        (by omega) (y := ctan2D m k l) ?_).mono ?_
      · evs
        simp [L.ofInt1, ofInt_two, ctan2D, ctanBase]
      · intro t h
        refine h.congr fun p q hpq => ⟨Or.inl hpq, ?_⟩
        by_cases e : p = k ∧ q = l
        · obtain ⟨rfl, rfl⟩ := e; simp
        · rw [if_neg e]
          have : (p < k ∨ p = k ∧ q < l + 1) ↔ (p < k ∨ p = k ∧ q < l) := by omega
          simp only [this]
    · intro t h
      refine h.congr fun p q hpq => ⟨hpq, ?_⟩
      have : (p < k ∨ p = k ∧ q < 3) ↔ p < k + 1 := by omega
      simp only [this]
  intro s hs hct; keep hs
  replace hct : MtxOn (s.l.m .ctan) 3 3 (fun p q => p < 3 ∧ q < 3) (ctan2D m) :=
    hct.congr fun p q h => ⟨h, if_pos h.1⟩
  refine Gives.seq (Gives.initM rfl) ?_
  intro s hs hxg; keep hs
  replace hxg : MtxOn (s.l.m .xg) 4 2 (fun p q => p < 4 ∧ q < 2) xg2D := hxg.congr (by
    rintro p q ⟨hp, hq⟩
    refine ⟨⟨hp, ?_⟩, rfl⟩
    interval_cases p <;> exact hq)
  refine Gives.seq (Gives.declM (fun _ _ => 0)) ?_
  intro s hs hds; keep hs
  refine Gives.seq (Gives.declM (fun _ _ => 0)) ?_
  intro s hs hb; keep hs
  refine Gives.seq (Gives.declM (fun _ _ => 0)) ?_
  intro s hs hcx; keep hs
  refine Gives.seq (Gives.map (m := 0) (N := 64) (fun _ => (0 : α)) hAe (by omega) (by omega)
    (by idx) ?_) ?_
  · intro k t _ hk hs hi hP
    keep hs
    exact ok_to (ev_lit _ _ _) hz
  intro s hs hAe; keep hs
  replace hAe : VecOn (s.l.v .Ae) 64 (· < 64) (fun _ => (0 : α)) :=
    hAe.congr le_rfl fun q hq => ⟨by omega, by simp; omega⟩
  generalize hF : (fun gp (Ae : Nat → α) => fun q =>
        let i := q / 8
        let j := q % 8
        accum 3 (fun k s => s + bmat2D c.dx c.dy gp k i
          * accum 3 (fun l t => t + ctan2D m k l * bmat2D c.dx c.dy gp l j) 0 * wg2D c) (Ae q)) = F
  refine ((Gives.for0 (N := 4) (fun gp t => VecOn (t.l.v .Ae) 64 (· < 64)
      (accum gp F (fun _ => 0)) ∧
      MtxOn (t.l.m .dsh) 4 2 (fun _ _ => False) (fun _ _ => (0 : α)) ∧
      MtxOn (t.l.m .b_mat) 3 8 (fun _ _ => False) (fun _ _ => (0 : α)) ∧
      MtxOn (t.l.m .cxb) 3 8 (fun _ _ => False) (fun _ _ => (0 : α)) ∧
      t.w = w) (by intro _ _ _ h; exact h) (by idx) ⟨hAe, hds, hb, hcx, hw⟩ ?_).same).mono ?_
  · rintro gp t hg4 hs hgp ⟨hAe, hds, hb, hcx, hw⟩
    keep hs
    rw [show accum (gp + 1) F (fun _ => 0) = F gp (accum gp F (fun _ => 0)) from rfl]
    generalize accum gp F (fun _ => 0) = Ae at *
    subst hF
    let CB : Nat → Nat → α := fun k j => accum 3 (fun l y => y + ctan2D m k l
      * bmat2D c.dx c.dy gp l j) 0
    replace hds := hds.congr (T := fun _ _ => False) (g := dsh2D c.dx c.dy gp)
      fun _ _ h => h.elim
    sd2 0 0; sd2 0 1
    sd2 1 0; sd2 1 1
    sd2 2 0; sd2 2 1
    sd2 3 0; sd2 3 1
    replace hds : MtxOn (s.l.m .dsh) 4 2 (fun p q => p < 4 ∧ q < 2) (dsh2D c.dx c.dy gp) :=
      hds.congr fun p q ⟨hp, hq⟩ => ⟨by interval_cases p <;> interval_cases q <;> simp, rfl⟩
    refine Gives.seq (Gives.each2 (a := .b_mat) (m := 0) (N := 4)
      (F := fun _ => bmat2D c.dx c.dy gp)
      (S := fun k p q => p < 3 ∧ q < k * 2) (hb.congr fun p q h => by omega) (by omega) rfl ?_) ?_
    · intro k t _ hk hs hi hP
      keep hs
      sb2 0 0; sb2 0 1
      sb2 1 0; sb2 1 1
      sb2 2 0
      refine (Gives.st2g 2 (k * 2 + 1) hP rfl (by idx) (by omega) (by omega) (by
        evs
        have h1 : (k * 2 + 1) / 2 = k := by omega
        have h2 : (k * 2 + 1) % 2 = 1 := by omega
        simp only [bmat2D, h1, h2]
        rfl)).mono ?_
      refine fun t h => h.congr fun p q ⟨hp, hq⟩ => ⟨?_, rfl⟩
      by_cases hl : q < k * 2
      · simp [hp, hl]
      · obtain ⟨d, rfl⟩ := Nat.exists_eq_add_of_le (not_lt.mp hl)
        have hd2 : d < 2 := by omega
        clear hq hl
        interval_cases p <;> interval_cases d <;> simp
    intro s hs hb; keep hs
    refine Gives.seq (Gives.each2 (m := 0) (N := 3) (F := fun _ => CB)
      (S := fun k p q => p < k ∧ q < 8) (hcx.congr fun p q h => by omega) (by omega) (by idx) ?_) ?_
    · intro k t _ hk hs hi hP
      keep hs
      refine (Gives.each2 (m := 0) (N := 8) (F := fun _ => CB)
        (S := fun l p q => (p < k ∧ q < 8) ∨ (p = k ∧ q < l))
        (hP.congr fun p q h => ⟨by omega, rfl⟩) (by omega) (by idx) ?_).mono ?_
      · intro l t _ hl hs hj hP
        keep hs
        refine Gives.seq (Gives.st2 (k := k) (r := l) hP (ev_ivar hi) (ev_ivar hj) rfl rfl hk hl
          (ev_lit _ _ _)) ?_
        intro s hs hP'; keep hs
        refine (Gives.fold2 (i0 := k) (j0 := l) (N := 3)
          (fun v y => y + ctan2D m k v * bmat2D c.dx c.dy gp v l) hP' (Or.inr ⟨rfl, rfl⟩) hk hl (by idx) ?_).mono ?_
        · intro v t hv hs hv' hQ
          keep hs
          refine ⟨ev_ivar hi, ev_ivar hj, ?_⟩
          evs
          simp
        · intro t h
          refine h.congr fun p q hpq => ⟨by omega, ?_⟩
          by_cases e : p = k ∧ q = l
          · obtain ⟨rfl, rfl⟩ := e
            simp [hz, CB]
          · simp [e]
      · exact fun t h => h.congr fun p q h => ⟨by omega, rfl⟩
    intro s hs hcx; keep hs
    refine Gives.seq (Gives.setD (y := wg2D c) (by evs; rfl)) ?_
    intro s hs hwg; keep hs
    let G : Nat → α := fun q => accum 3 (fun k t => t + bmat2D c.dx c.dy gp k (q / 8) * CB k (q % 8)
      * wg2D c) (Ae q)
    refine ((Gives.for0 (fun k t => VecOn (t.l.v .Ae) 64 (· < 64) (fun q => if q < k * 8 then G q
      else Ae q)) (fun _ _ _ h => h) (by idx) (hAe.congr le_rfl fun q hq => ⟨hq, by simp⟩)
      (N := 8) ?_).same).mono ?_
    · intro k t hk hs hi hP
      keep hs
      refine (Gives.for0 (fun l t => VecOn (t.l.v .Ae) 64 (· < 64) (fun q => if q < k * 8 + l then G q
        else Ae q)) (fun _ _ _ h => h) (by idx) hP (N := 8) ?_).mono ?_
      · intro l t hl hs hj hP
        keep hs
        refine (Gives.fold1 (i0 := k * 8 + l) (N := 3)
          (fun v t => t + bmat2D c.dx c.dy gp v k * CB v l * wg2D c) hP (by omega) (by omega) (by idx) ?_).mono ?_
        · intro v t hv hs hm hQ
          keep hs
          have hix : ((IExp.add (.mul (.mul (.var .i) (.mem .npe)) (.mem .dim)) (.var .j)).eval c t.l)
            = .ok ((k * 8 + l : Nat) : Int) := by idx
          refine ⟨hix, ok_to (ev_add (ev_rd1 hQ hix (by omega) (by omega) (by simp; omega))
            (y := bmat2D c.dx c.dy gp v k * CB v l * wg2D c) (by evs; simp)) (by
              simp only [Int.toNat_natCast, if_true])⟩
        · intro t h
          refine h.congr le_rfl fun q hq => ⟨hq, ?_⟩
          by_cases e : q = k * 8 + l
          · have h1 : (k * 8 + l) / 8 = k := by omega
            have h2 : (k * 8 + l) % 8 = l := by omega
            rw [if_pos e, if_neg (by omega), if_pos (by omega), e]
            simp only [G, h1, h2]
          · rw [if_neg e]
            have : q < k * 8 + (l + 1) ↔ q < k * 8 + l := by omega
            simp only [this]
      · intro t h
        refine h.congr le_rfl fun q hq => ⟨hq, ?_⟩
        have : q < k * 8 + 8 ↔ q < (k + 1) * 8 := by omega
        simp only [this]
    · rintro t ⟨hs, h⟩
      keep hs
      exact ⟨h.congr le_rfl fun q hq => ⟨hq, by rw [if_pos (by omega)]⟩,
        hds.congr fun _ _ h => h.elim, hb.congr fun _ _ h => h.elim,
        hcx.congr fun _ _ h => h.elim, hw⟩
  · rintro t ⟨hs, h⟩
    exact ⟨rfl, h.1, h.2.2.2.2⟩

theorem run_get_elem_mat3D (L : LitLaws α) {s : St α} {w : Work α} {ex ey ez : Nat}
    {r : ElemMat α} {g : Nat → α} (hw : s.w = w) (hd : c.dim = 3)
    (hm : getElemMat3D c w.u w.varsOld w.varsNew ex ey ez = .ok r)
    (hx : 1 ≤ c.nx) (hy : 1 ≤ c.ny)
    (hex : s.l.i .ex = some (ex : Int)) (hey : s.l.i .ey = some (ey : Int))
    (hez : s.l.i .ez = some (ez : Int))
    (hAe : VecOn (s.l.v .Ae) 576 (fun _ => False) g) :
    Gives (run c (n + 5) .get_elem_mat3D s) (fun t =>
      VecOn (t.l.v .Ae) 576 (· < 576) r.Ae ∧ t.w = { w with varsNew := r.varsNew }) := by
  show Gives (t_get_elem_mat3D.exec c (run c (n + 4)) s) _
  unfold getElemMat3D at hm
  have hz : (OfScientific.ofScientific 0 true 1 : α) = 0 := L.zeroD
  rw [bind_ok_iff] at hm
  obtain ⟨m, hmat, hm⟩ := hm
  refine Gives.seq (Gives.setI (k := ((gloElem3D c.nx c.ny ex ey ez : Nat) : Int)) (by idx)) ?_
  intro s hs hee; keep hs
  generalize gloElem3D c.nx c.ny ex ey ez = e at *
  refine Gives.seq Gives.declMat ?_
  intro s hs _; keep hs
  refine Gives.seq (Gives.call' (P := fun t =>
      t.l.d .material_E = some m.E ∧ t.l.d .material_nu = some m.nu ∧
      t.l.d .material_Sy = some m.Sy ∧ t.l.d .material_Ka = some m.Ka ∧
      t.l.d .material_mu = some m.mu ∧ t.l.d .material_k = some m.k ∧
      t.l.d .material_lam = some m.lambda ∧
      t.l.i .material_plasticity = some (if m.plasticity = true then 1 else 0) ∧ t.w = w) (Q := _) ?_ (fun _ h => h)) ?_
  · refine ⟨_, by simp only [params, passAll, passIn, ev_ivar hee, M_bind_ok', M_pure]; rfl, ?_⟩
    exact run_get_material hw hmat rfl
  rintro s hs ⟨-, -, -, -, hmu, -, hla, hpl, -⟩; keep hs
  refine Gives.seq (Gives.declM (fun _ _ => 0)) ?_
  intro s hs hct; keep hs
  refine Gives.seq (Gives.map (m := 0) (N := 576) (fun _ => (0 : α)) hAe (by omega) (by omega)
    (by idx) ?_) ?_
  · intro k t _ hk hs hi hP
    keep hs
    exact ok_to (ev_lit _ _ _) hz
  intro s hs hAe; keep hs
  replace hAe : VecOn (s.l.v .Ae) 576 (· < 576) (fun _ => (0 : α)) :=
    hAe.congr le_rfl fun q hq => ⟨by omega, by simp; omega⟩
  refine ((Gives.sim (N := 8) (fun (r : ElemMat α) t => VecOn (t.l.v .Ae) 576 (· < 576) r.Ae ∧
      MtxOn (t.l.m .ctan) 6 6 (fun _ _ => False) (fun _ _ => (0 : α)) ∧
      t.w = { w with varsNew := r.varsNew }) (by intro _ _ _ h; exact h) (by idx) hm
      ⟨hAe, hct, hw⟩ ?_).same).mono ?_
  · rintro gp t ⟨Ae, vn⟩ r' hg8 hs hgp ⟨hAe, hct, hw⟩ hf
    keep hs
    replace hAe : VecOn (t.l.v .Ae) 576 (· < 576) Ae := hAe
    replace hw : t.w = { w with varsNew := vn } := hw
    obtain ⟨ct, hcm, rfl⟩ : ∃ ct : CtanOut α, (if m.plasticity = true then
        getCtanPlastPert c w.u w.varsOld vn ex ey ez gp
        else pure { ctan := ctan3D m, varsNew := vn }) = .ok ct ∧
        r' = { Ae := fun q => accum 6 (fun k t => t + bmat3D c.dx c.dy c.dz gp k (q / 24)
                * accum 6 (fun l y => y + ct.ctan k l * bmat3D c.dx c.dy c.dz gp l (q % 24)) 0
                * wg3D c) (Ae q)
               varsNew := ct.varsNew } := by
      by_cases hp : m.plasticity = true
      · simp only [hp, if_true, bind_ok_iff, pure_ok_iff] at hf ⊢
        obtain ⟨a, h1, h2⟩ := hf
        exact ⟨a, h1, h2.symm⟩
      · simp only [hp, if_false, Bool.false_eq_true, bind_ok_iff, pure_ok_iff] at hf ⊢
        obtain ⟨a, rfl, h2⟩ := hf
        exact ⟨_, rfl, h2.symm⟩
    have hb : (BExp.eqI (.var .material_plasticity) (.lit 1)).eval c t
        = .ok (decide (m.plasticity = true)) :=
      ok_to (ev_eqI (ev_ivar hpl) (ev_ilit _)) (by split <;> simp_all)
    refine Gives.seq (P := fun t => MtxOn (t.l.m .ctan) 6 6 (fun p q => p < 6 ∧ q < 6) ct.ctan ∧
      t.w = { w with varsNew := ct.varsNew }) ?_ ?_
    · by_cases hp : m.plasticity = true
      · refine Gives.ite_pos (hb.trans (by simp [hp])) ?_
        rw [if_pos hp] at hcm
        refine Gives.seq (Gives.setI (ev_ilit _)) ?_
        intro s hs h1; keep hs
        refine Gives.seq (Gives.setI (ev_ilit _)) ?_
        intro s hs h2; keep hs
        refine Gives.seq (Gives.setI (ev_ilit _)) ?_
        intro s hs h3; keep hs
        refine Gives.ite_neg (ok_to (ev_eqI (ev_ivar h1) (ev_ilit _)) (by simp)) ?_
        refine Gives.ite_neg (ok_to (ev_eqI (ev_ivar h3) (ev_ilit _)) (by simp)) ?_
        refine Gives.ite_pos (ok_to (ev_eqI (ev_ivar h2) (ev_ilit _)) (by simp)) ?_
        refine Gives.call' (Q := _) ?_ (fun _ h => h)
        refine ⟨_, by simp only [params, passAll, passIn, ev_ivar hex, ev_ivar hey, ev_ivar hez,
          ev_ivar hgp, M_bind_ok', M_pure]; rfl, ?_⟩
        exact run_get_ctan_plast_pert (w := { w with varsNew := vn }) L hw hd hcm hx hy rfl rfl rfl
          rfl hg8 hct
      · refine Gives.ite_neg (hb.trans (by simp [hp])) ?_
        rw [if_neg hp] at hcm
        cases hcm
        refine ((Gives.ctanLoops L hmu hla hct).same (a := ctanLoops)).mono ?_
        rintro t ⟨hs, h⟩
        keep hs
        exact ⟨h, hw⟩
    rintro s hs ⟨hct, hw⟩; keep hs
    let CB : Nat → Nat → α := fun k j => accum 6 (fun l y => y + ct.ctan k l
      * bmat3D c.dx c.dy c.dz gp l j) 0
    refine Gives.seq (Gives.declM (fun _ _ => 0)) ?_
    intro s hs hb; keep hs
    refine Gives.seq (Gives.declM (fun _ _ => 0)) ?_
    intro s hs hcx; keep hs
    refine Gives.seq (Gives.call' (P := fun t =>
        MtxOn (t.l.m .bmat) 6 24 (fun p q => p < 6 ∧ q < 24) (bmat3D c.dx c.dy c.dz gp) ∧
        t.w = { w with varsNew := ct.varsNew }) (Q := _) ?_ (fun _ h => h)) ?_
    · refine ⟨_, by simp only [params, passAll, passIn, ev_ivar hgp, M_bind_ok', M_pure]; rfl, ?_⟩
      exact run_calc_bmat_3D L hw hd rfl hg8 hb
    rintro s hs ⟨hb, -⟩; keep hs
    refine Gives.seq (Gives.each2 (m := 0) (N := 6) (F := fun _ => CB)
      (S := fun k p q => p < k ∧ q < 24) (hcx.congr fun p q h => by omega) (by omega) (by idx) ?_) ?_
    · intro k t _ hk hs hi hP
      keep hs
      refine (Gives.each2 (m := 0) (N := 24) (F := fun _ => CB)
        (S := fun l p q => (p < k ∧ q < 24) ∨ (p = k ∧ q < l))
        (hP.congr fun p q h => ⟨by omega, rfl⟩) (by omega) (by idx) ?_).mono ?_
      · intro l t _ hl hs hj hP
        keep hs
        refine Gives.seq (Gives.st2 (k := k) (r := l) hP (ev_ivar hi) (ev_ivar hj) rfl rfl hk hl
          (ev_lit _ _ _)) ?_
        intro s hs hP'; keep hs
        refine (Gives.fold2 (i0 := k) (j0 := l) (N := 6)
          (fun v y => y + ct.ctan k v * bmat3D c.dx c.dy c.dz gp v l) hP' (Or.inr ⟨rfl, rfl⟩) hk hl (by idx) ?_).mono ?_
        · intro v t hv hs hv' hQ
          keep hs
          refine ⟨ev_ivar hi, ev_ivar hj, ?_⟩
          evs
          simp
        · intro t h
          refine h.congr fun p q hpq => ⟨by omega, ?_⟩
          by_cases e : p = k ∧ q = l
          · obtain ⟨rfl, rfl⟩ := e
            simp [hz, CB]
          · simp [e]
      · exact fun t h => h.congr fun p q h => ⟨by omega, rfl⟩
    intro s hs hcx; keep hs
    refine Gives.seq (Gives.setD (y := wg3D c) (by evs; simp only [L.ofInt1]; rfl)) ?_
    intro s hs hwg; keep hs
    let G : Nat → α := fun q => accum 6 (fun k t => t + bmat3D c.dx c.dy c.dz gp k (q / 24) * CB k (q % 24)
      * wg3D c) (Ae q)
    refine ((Gives.for0 (fun k t => VecOn (t.l.v .Ae) 576 (· < 576) (fun q => if q < k * 24 then G q
      else Ae q)) (fun _ _ _ h => h) (by idx) (hAe.congr le_rfl fun q hq => ⟨hq, by simp⟩)
      (N := 24) ?_).same).mono ?_
    · intro k t hk hs hi hP
      keep hs
      refine (Gives.for0 (fun l t => VecOn (t.l.v .Ae) 576 (· < 576) (fun q => if q < k * 24 + l then G q
        else Ae q)) (fun _ _ _ h => h) (by idx) hP (N := 24) ?_).mono ?_
      · intro l t hl hs hj hP
        keep hs
        refine (Gives.fold1 (i0 := k * 24 + l) (N := 6)
          (fun v t => t + bmat3D c.dx c.dy c.dz gp v k * CB v l * wg3D c) hP (by omega) (by omega) (by idx) ?_).mono ?_
        · intro v t hv hs hm hQ
          keep hs
          have hix : ((IExp.add (.mul (.mul (.var .i) (.mem .npe)) (.mem .dim)) (.var .j)).eval c t.l)
            = .ok ((k * 24 + l : Nat) : Int) := by idx
          refine ⟨hix, ok_to (ev_add (ev_rd1 hQ hix (by omega) (by omega) (by simp; omega))
            (y := bmat3D c.dx c.dy c.dz gp v k * CB v l * wg3D c) (by evs; simp)) (by
              simp only [Int.toNat_natCast, if_true])⟩
        · intro t h
          refine h.congr le_rfl fun q hq => ⟨hq, ?_⟩
          by_cases e : q = k * 24 + l
          · have h1 : (k * 24 + l) / 24 = k := by omega
            have h2 : (k * 24 + l) % 24 = l := by omega
            rw [if_pos e, if_neg (by omega), if_pos (by omega), e]
            simp only [G, h1, h2]
          · rw [if_neg e]
            have : q < k * 24 + (l + 1) ↔ q < k * 24 + l := by omega
            simp only [this]
      · intro t h
        refine h.congr le_rfl fun q hq => ⟨hq, ?_⟩
        have : q < k * 24 + 24 ↔ q < (k + 1) * 24 := by omega
        simp only [this]
    · rintro t ⟨hs, h⟩
      keep hs
      exact ⟨h.congr le_rfl fun q hq => ⟨hq, by rw [if_pos (by omega)]⟩,
        hct.congr fun _ _ h => h.elim, hw⟩
  · rintro t ⟨hs, h⟩
    exact ⟨h.1, h.2.2⟩

end Verif.Text
