import Verif.Lemmas.EllPattern
import Mathlib.Tactic.IntervalCases

/-! # The boundary-condition routines -/

set_option linter.unusedSectionVars false

namespace Verif
open Spec

section
variable {α : Type} [Scalar α]

/-- The value `ell_set_bc_*` stores wherever it stores one. -/
def bcVal (nF W slot q : Nat) : α :=
  if ixS nF W q = slot ∧ ixD nF W q = ixD2 nF W q then 1 else 0

theorem bcVal_slotIx {nF W slot n d s d2 : Nat} (hd : d < nF) (hs : s < W) (h2 : d2 < nF) :
    (bcVal nF W slot (slotIx nF W n d s d2) : α) = if s = slot ∧ d = d2 then 1 else 0 := by
  unfold bcVal; rw [ixS_slotIx hs h2, ixD_slotIx hd hs h2, ixD2_slotIx h2]

/-- Entries of row `d` of node `n`. -/
def RowSet (nF W n d q : Nat) : Prop :=
  ∃ s d2, s < W ∧ d2 < nF ∧ q = slotIx nF W n d s d2

theorem row_index {nF W n d j : Nat} (hj : j < W * nF) :
    ∃ s d2, s < W ∧ d2 < nF ∧ n * nF * (W * nF) + d * (W * nF) + j = slotIx nF W n d s d2 := by
  have hF : 0 < nF := by
    rcases Nat.eq_zero_or_pos nF with h | h
    · simp [h] at hj
    · exact h
  refine ⟨j / nF, j % nF, Nat.div_lt_of_lt_mul (by rw [Nat.mul_comm]; exact hj),
    Nat.mod_lt _ hF, ?_⟩
  unfold slotIx
  have := Nat.div_add_mod j nF
  calc n * nF * (W * nF) + d * (W * nF) + j
      = n * nF * (W * nF) + d * (W * nF) + (nF * (j / nF) + j % nF) := by rw [this]
    _ = _ := by ring

theorem idRow_setTo {nF W slot n d nn : Nat} (hn : n < nn) (hd : d < nF) (hslot : slot < W) :
    SetTo (W * nF * (nn * nF)) (bcVal nF W slot) (RowSet nF W n d)
      (idRow (α := α) nF (W * nF) slot n d) := by
  intro v hv
  unfold idRow
  have H : SetTo (W * nF * (nn * nF)) (fun _ => (0 : α))
      (fun q => ∃ j, j < W * nF ∧ q = n * nF * (W * nF) + d * (W * nF) + j)
      (loop (W * nF) (fun j v => v.write (n * nF * (W * nF) + d * (W * nF) + j) 0)) := by
    refine SetTo.loop fun j hj => SetTo.write ?_ rfl
    obtain ⟨s, d2, hs, h2, e⟩ := row_index (n := n) (d := d) hj
    rw [e]; exact slotIx_lt hn hd hs h2
  obtain ⟨v1, h1, s1, a1, b1⟩ := H v hv
  rw [h1, M_bind_ok', ix_form_bc, Buf.write_ok _ (by rw [s1]; exact slotIx_lt hn hd hslot hd)]
  refine ⟨_, rfl, s1, ?_, ?_⟩
  · rintro q ⟨s, d2, hs, h2, rfl⟩
    simp only
    rw [bcVal_slotIx hd hs h2]
    by_cases hc : s = slot ∧ d = d2
    · rw [if_pos hc, if_pos (by rw [hc.1, ← hc.2])]
    · rw [if_neg hc, if_neg, a1]
      · refine ⟨s * nF + d2, mul_add_lt hs h2, ?_⟩
        rw [← Nat.add_assoc, ix_form_bc]
      · intro e
        rw [slotIx_inj hd hs h2 hd hslot hd] at e
        exact hc ⟨e.2.2.1, e.2.2.2.symm⟩
  · intro q hq
    simp only
    rw [if_neg, b1]
    · rintro ⟨j, hj, rfl⟩
      obtain ⟨s, d2, hs, h2, e⟩ := row_index (n := n) (d := d) hj
      exact hq ⟨s, d2, hs, h2, e⟩
    · rintro rfl
      exact hq ⟨slot, d, hslot, hd, rfl⟩

/-- Entries zeroed by `zeroSlots`. -/
def SlotSet (nF W n d : Nat) (tmp : List Nat) (q : Nat) : Prop :=
  ∃ s d2, s ∈ tmp ∧ d2 < nF ∧ q = slotIx nF W n d s d2

theorem zeroSlots_setTo {nF W slot n d nn : Nat} {tmp : List Nat} (hn : n < nn) (hd : d < nF)
    (ht : ∀ l ∈ tmp, l < W ∧ l ≠ slot) :
    SetTo (W * nF * (nn * nF)) (bcVal nF W slot) (SlotSet nF W n d tmp)
      (zeroSlots (α := α) nF (W * nF) n d tmp) := by
  unfold zeroSlots
  refine (SetTo.loopList (S := fun l q => ∃ d2, d2 < nF ∧
    q = n * nF * (W * nF) + d * (W * nF) + l * nF + d2) fun l hl => SetTo.loop fun d2 h2 =>
      SetTo.write ?_ ?_).congr ?_
  · rw [ix_form_bc]; exact slotIx_lt hn hd (ht l hl).1 h2
  · rw [ix_form_bc, bcVal_slotIx hd (ht l hl).1 h2, if_neg (fun h => (ht l hl).2 h.1)]
  · intro q
    constructor
    · rintro ⟨l, hl, d2, h2, rfl⟩; exact ⟨l, d2, hl, h2, ix_form_bc⟩
    · rintro ⟨l, d2, hl, h2, rfl⟩; exact ⟨l, hl, d2, h2, ix_form_bc.symm⟩

theorem RowSet_slotIx {nF W n d n' d' s d2 : Nat} (hd' : d' < nF) (hd : d < nF)
    (hs : s < W) (h2 : d2 < nF) :
    RowSet nF W n' d' (slotIx nF W n d s d2) ↔ n = n' ∧ d = d' := by
  constructor
  · rintro ⟨s', d2', hs', h2', e⟩
    rw [slotIx_inj hd hs h2 hd' hs' h2'] at e
    exact ⟨e.1, e.2.1⟩
  · rintro ⟨rfl, rfl⟩; exact ⟨s, d2, hs, h2, rfl⟩

theorem SlotSet_slotIx {nF W n d n' d' s d2 : Nat} {tmp : List Nat} (ht : ∀ l ∈ tmp, l < W)
    (hd' : d' < nF) (hd : d < nF) (hs : s < W) (h2 : d2 < nF) :
    SlotSet nF W n' d' tmp (slotIx nF W n d s d2) ↔ n = n' ∧ d = d' ∧ s ∈ tmp := by
  constructor
  · rintro ⟨s', d2', hs', h2', e⟩
    rw [slotIx_inj hd hs h2 hd' (ht _ hs') h2'] at e
    exact ⟨e.1, e.2.1, e.2.2.1 ▸ hs'⟩
  · rintro ⟨rfl, rfl, h⟩; exact ⟨s, d2, h, h2, rfl⟩

/-- Both routines: what is left of a matrix after a `SetTo` block. -/
theorem setBc_of {N : Nat} {c : Nat → α} {S : Nat → Prop} {f : Buf α → M (Buf α)}
    (h : SetTo N c S f) (m : Ell α) (hm : m.vals.size = N) :
    ∃ v : Buf α, (f m.vals).bind (fun v => .ok { m with vals := v }) = .ok { m with vals := v } ∧
      v.size = N ∧ (∀ q, S q → v.val q = c q) ∧ (∀ q, ¬ S q → v.val q = m.vals.val q) := by
  obtain ⟨v, h1, h2, h3, h4⟩ := h m.vals hm
  exact ⟨v, by rw [h1]; rfl, h2, h3, h4⟩

/-! ## 3D -/

/-- A slot of node `(i,j,k)` that `ell_set_bc_3D` overwrites: the node is on the boundary, or the
neighbour designated by the slot is. -/
def bc3 (nx ny nz i j k s : Nat) : Prop :=
  Bdry3 nx ny nz i j k ∨
  ((k = 1 ∧ s / 9 = 0) ∨ (k + 2 = nz ∧ s / 9 = 2) ∨ (j = 1 ∧ s / 3 % 3 = 0) ∨
   (j + 2 = ny ∧ s / 3 % 3 = 2) ∨ (i = 1 ∧ s % 3 = 0) ∨ (i + 2 = nx ∧ s % 3 = 2))

theorem mem_slots3 {s : Nat} (hs : s < 27) :
    (s ∈ [0, 1, 2, 3, 4, 5, 6, 7, 8] ↔ s / 9 = 0) ∧
    (s ∈ [18, 19, 20, 21, 22, 23, 24, 25, 26] ↔ s / 9 = 2) ∧
    (s ∈ [0, 1, 2, 9, 10, 11, 18, 19, 20] ↔ s / 3 % 3 = 0) ∧
    (s ∈ [6, 7, 8, 15, 16, 17, 24, 25, 26] ↔ s / 3 % 3 = 2) ∧
    (s ∈ [0, 3, 6, 9, 12, 15, 18, 21, 24] ↔ s % 3 = 0) ∧
    (s ∈ [2, 5, 8, 11, 14, 17, 20, 23, 26] ↔ s % 3 = 2) := by
  interval_cases s <;> decide

set_option maxHeartbeats 1000000 in
theorem ellSetBc3D_eq {nF nx ny nz : Nat} {m : Ell α} (hx : 2 ≤ nx) (hy : 2 ≤ ny) (hz : 2 ≤ nz)
    (hnnz : m.nnz = 27 * nF) (hsize : m.vals.size = 27 * nF * (nx * ny * nz * nF)) :
    ∃ v : Buf α, ellSetBc3D m nF nx ny nz = .ok { m with vals := v } ∧
      v.size = 27 * nF * (nx * ny * nz * nF) ∧
      ∀ i j k d s d2, i < nx → j < ny → k < nz → d < nF → s < 27 → d2 < nF →
        (bc3 nx ny nz i j k s → v.val (slotIx nF 27 (node3 nx ny i j k) d s d2)
          = if s = 13 ∧ d = d2 then 1 else 0) ∧
        (¬ bc3 nx ny nz i j k s → v.val (slotIx nF 27 (node3 nx ny i j k) d s d2)
          = m.vals.val (slotIx nF 27 (node3 nx ny i j k) d s d2)) := by
  obtain ⟨nrow, ncol, nnz, cols, vals⟩ := m
  simp only at hnnz hsize
  subst hnnz
  unfold ellSetBc3D
  have row : ∀ {i j k d : Nat}, i < nx → j < ny → k < nz → d < nF →
      SetTo (27 * nF * (nx * ny * nz * nF)) (bcVal nF 27 13)
        (RowSet nF 27 (nodIndex nx ny i j k) d)
        (idRow (α := α) nF (27 * nF) 13 (nodIndex nx ny i j k) d) := by
    intro i j k d hi hj hk hd
    exact idRow_setTo (by rw [nodIndex_eq]; exact node3_lt hi hj hk) hd (by omega)
  have zs : ∀ {i j k d : Nat} {tmp : List Nat}, i < nx → j < ny → k < nz → d < nF →
      (∀ l ∈ tmp, l < 27 ∧ l ≠ 13) →
      SetTo (27 * nF * (nx * ny * nz * nF)) (bcVal nF 27 13)
        (SlotSet nF 27 (nodIndex nx ny i j k) d tmp)
        (zeroSlots (α := α) nF (27 * nF) (nodIndex nx ny i j k) d tmp) := by
    intro i j k d tmp hi hj hk hd ht
    exact zeroSlots_setTo (by rw [nodIndex_eq]; exact node3_lt hi hj hk) hd ht
  have H :=
    (SetTo.loop (n := nF) fun d hd => SetTo.loop (n := nx) fun i hi => SetTo.loop (n := ny) fun j hj =>
      row (d := d) hi hj (show 0 < nz by omega) hd).bind <|
    (SetTo.loop (n := nF) fun d hd => SetTo.loop (n := nx) fun i hi => SetTo.loop (n := ny) fun j hj =>
      row (d := d) hi hj (show nz - 1 < nz by omega) hd).bind <|
    (SetTo.loop (n := nF) fun d hd => SetTo.loop (n := nx) fun i hi => SetTo.loop (n := nz) fun k hk =>
      row (d := d) hi (show 0 < ny by omega) hk hd).bind <|
    (SetTo.loop (n := nF) fun d hd => SetTo.loop (n := nx) fun i hi => SetTo.loop (n := nz) fun k hk =>
      row (d := d) hi (show ny - 1 < ny by omega) hk hd).bind <|
    (SetTo.loop (n := nF) fun d hd => SetTo.loop (n := ny) fun j hj => SetTo.loop (n := nz) fun k hk =>
      row (d := d) (show 0 < nx by omega) hj hk hd).bind <|
    (SetTo.loop (n := nF) fun d hd => SetTo.loop (n := ny) fun j hj => SetTo.loop (n := nz) fun k hk =>
      row (d := d) (show nx - 1 < nx by omega) hj hk hd).bind <|
    (SetTo.ite (p := 2 < nz) fun hp => SetTo.loop (n := nF) fun d hd =>
      SetTo.loopFrom (a := 1) (b := nx - 1) fun i _ hi =>
      SetTo.loopFrom (a := 1) (b := ny - 1) fun j _ hj =>
      zs (d := d) (tmp := [0, 1, 2, 3, 4, 5, 6, 7, 8]) (show i < nx by omega) (show j < ny by omega)
        (show 1 < nz by omega) hd (by decide)).bind <|
    (SetTo.ite (p := 2 < nz) fun hp => SetTo.loop (n := nF) fun d hd =>
      SetTo.loopFrom (a := 1) (b := nx - 1) fun i _ hi =>
      SetTo.loopFrom (a := 1) (b := ny - 1) fun j _ hj =>
      zs (d := d) (tmp := [18, 19, 20, 21, 22, 23, 24, 25, 26]) (show i < nx by omega)
        (show j < ny by omega) (show nz - 2 < nz by omega) hd (by decide)).bind <|
    (SetTo.ite (p := 2 < ny) fun hp => SetTo.loop (n := nF) fun d hd =>
      SetTo.loopFrom (a := 1) (b := nx - 1) fun i _ hi =>
      SetTo.loopFrom (a := 1) (b := nz - 1) fun k _ hk =>
      zs (d := d) (tmp := [0, 1, 2, 9, 10, 11, 18, 19, 20]) (show i < nx by omega)
        (show 1 < ny by omega) (show k < nz by omega) hd (by decide)).bind <|
    (SetTo.loop (n := nF) fun d hd =>
      SetTo.loopFrom (a := 1) (b := nx - 1) fun i _ hi =>
      SetTo.loopFrom (a := 1) (b := nz - 1) fun k _ hk =>
      zs (d := d) (tmp := [6, 7, 8, 15, 16, 17, 24, 25, 26]) (show i < nx by omega)
        (show ny - 2 < ny by omega) (show k < nz by omega) hd (by decide)).bind <|
    (SetTo.ite (p := 2 < nx) fun hp => SetTo.loop (n := nF) fun d hd =>
      SetTo.loopFrom (a := 1) (b := ny - 1) fun j _ hj =>
      SetTo.loopFrom (a := 1) (b := nz - 1) fun k _ hk =>
      zs (d := d) (tmp := [0, 3, 6, 9, 12, 15, 18, 21, 24]) (show 1 < nx by omega)
        (show j < ny by omega) (show k < nz by omega) hd (by decide)).bind <|
    (SetTo.ite (p := 2 < nx) fun hp => SetTo.loop (n := nF) fun d hd =>
      SetTo.loopFrom (a := 1) (b := ny - 1) fun j _ hj =>
      SetTo.loopFrom (a := 1) (b := nz - 1) fun k _ hk =>
      zs (d := d) (tmp := [2, 5, 8, 11, 14, 17, 20, 23, 26]) (show nx - 2 < nx by omega)
        (show j < ny by omega) (show k < nz by omega) hd (by decide))
  obtain ⟨v, h1, h2, h3, h4⟩ := setBc_of H ⟨nrow, ncol, 27 * nF, cols, vals⟩ hsize
  refine ⟨v, ?_, h2, ?_⟩
  · rw [← h1]
    simp only [M_bind_assoc]
    rfl
  · intro i j k d s d2 hi hj hk hd hs hd2
    obtain ⟨m1, m2, m3, m4, m5, m6⟩ := mem_slots3 hs
    have rs : ∀ {i' j' k' d' : Nat}, d' < nF → i' < nx → j' < ny →
        (RowSet nF 27 (nodIndex nx ny i' j' k') d' (slotIx nF 27 (node3 nx ny i j k) d s d2) ↔
          (i = i' ∧ j = j' ∧ k = k') ∧ d = d') := by
      intro i' j' k' d' hd' hi' hj'
      rw [nodIndex_eq, RowSet_slotIx hd' hd hs hd2, node3_inj hi hj hi' hj']
    have ss : ∀ {i' j' k' d' : Nat} {tmp : List Nat}, (∀ l ∈ tmp, l < 27) → d' < nF → i' < nx →
        j' < ny → (SlotSet nF 27 (nodIndex nx ny i' j' k') d' tmp
          (slotIx nF 27 (node3 nx ny i j k) d s d2) ↔
          (i = i' ∧ j = j' ∧ k = k') ∧ d = d' ∧ s ∈ tmp) := by
      intro i' j' k' d' tmp ht hd' hi' hj'
      rw [nodIndex_eq, SlotSet_slotIx ht hd' hd hs hd2, node3_inj hi hj hi' hj']
    constructor
    · intro hb
      rw [h3 _ ?_, bcVal_slotIx hd hs hd2]
      by_cases hB : Bdry3 nx ny nz i j k
      · rcases hB with e | e | e | e | e | e
        · exact Or.inr <| Or.inr <| Or.inr <| Or.inr <| Or.inl
            ⟨d, hd, j, hj, k, hk, (rs hd (by omega) (by omega)).mpr ⟨by omega, rfl⟩⟩
        · exact Or.inr <| Or.inr <| Or.inr <| Or.inr <| Or.inr <| Or.inl
            ⟨d, hd, j, hj, k, hk, (rs hd (by omega) (by omega)).mpr ⟨by omega, rfl⟩⟩
        · exact Or.inr <| Or.inr <| Or.inl
            ⟨d, hd, i, hi, k, hk, (rs hd (by omega) (by omega)).mpr ⟨by omega, rfl⟩⟩
        · exact Or.inr <| Or.inr <| Or.inr <| Or.inl
            ⟨d, hd, i, hi, k, hk, (rs hd (by omega) (by omega)).mpr ⟨by omega, rfl⟩⟩
        · exact Or.inl
            ⟨d, hd, i, hi, j, hj, (rs hd (by omega) (by omega)).mpr ⟨by omega, rfl⟩⟩
        · exact Or.inr <| Or.inl
            ⟨d, hd, i, hi, j, hj, (rs hd (by omega) (by omega)).mpr ⟨by omega, rfl⟩⟩
      · have hb := hb.resolve_left hB
        unfold Bdry3 at hB
        rcases hb with ⟨e, es⟩ | ⟨e, es⟩ | ⟨e, es⟩ | ⟨e, es⟩ | ⟨e, es⟩ | ⟨e, es⟩
        · exact Or.inr <| Or.inr <| Or.inr <| Or.inr <| Or.inr <| Or.inr <| Or.inl
            ⟨by omega, d, hd, i, by omega, by omega, j, by omega, by omega,
              (ss (by decide) hd (by omega) (by omega)).mpr ⟨by omega, rfl, m1.mpr es⟩⟩
        · exact Or.inr <| Or.inr <| Or.inr <| Or.inr <| Or.inr <| Or.inr <| Or.inr <| Or.inl
            ⟨by omega, d, hd, i, by omega, by omega, j, by omega, by omega,
              (ss (by decide) hd (by omega) (by omega)).mpr ⟨by omega, rfl, m2.mpr es⟩⟩
        · exact Or.inr <| Or.inr <| Or.inr <| Or.inr <| Or.inr <| Or.inr <| Or.inr <| Or.inr <|
            Or.inl ⟨by omega, d, hd, i, by omega, by omega, k, by omega, by omega,
              (ss (by decide) hd (by omega) (by omega)).mpr ⟨by omega, rfl, m3.mpr es⟩⟩
        · exact Or.inr <| Or.inr <| Or.inr <| Or.inr <| Or.inr <| Or.inr <| Or.inr <| Or.inr <|
            Or.inr <| Or.inl ⟨d, hd, i, by omega, by omega, k, by omega, by omega,
              (ss (by decide) hd (by omega) (by omega)).mpr ⟨by omega, rfl, m4.mpr es⟩⟩
        · exact Or.inr <| Or.inr <| Or.inr <| Or.inr <| Or.inr <| Or.inr <| Or.inr <| Or.inr <|
            Or.inr <| Or.inr <| Or.inl ⟨by omega, d, hd, j, by omega, by omega, k, by omega, by omega,
              (ss (by decide) hd (by omega) (by omega)).mpr ⟨by omega, rfl, m5.mpr es⟩⟩
        · exact Or.inr <| Or.inr <| Or.inr <| Or.inr <| Or.inr <| Or.inr <| Or.inr <| Or.inr <|
            Or.inr <| Or.inr <| Or.inr ⟨by omega, d, hd, j, by omega, by omega, k, by omega, by omega,
              (ss (by decide) hd (by omega) (by omega)).mpr ⟨by omega, rfl, m6.mpr es⟩⟩
    · intro hb
      rw [h4 _ ?_]
      intro hS
      apply hb
      unfold bc3 Bdry3
      rcases hS with ⟨d', hd', i', hi', j', hj', hr⟩ | ⟨d', hd', i', hi', j', hj', hr⟩ |
        ⟨d', hd', i', hi', k', hk', hr⟩ | ⟨d', hd', i', hi', k', hk', hr⟩ |
        ⟨d', hd', j', hj', k', hk', hr⟩ | ⟨d', hd', j', hj', k', hk', hr⟩ |
        ⟨-, d', hd', i', hi1, hi', j', hj1, hj', hr⟩ | ⟨-, d', hd', i', hi1, hi', j', hj1, hj', hr⟩ |
        ⟨-, d', hd', i', hi1, hi', k', hk1, hk', hr⟩ | ⟨d', hd', i', hi1, hi', k', hk1, hk', hr⟩ |
        ⟨-, d', hd', j', hj1, hj', k', hk1, hk', hr⟩ | ⟨-, d', hd', j', hj1, hj', k', hk1, hk', hr⟩
      · rw [rs hd' (by omega) (by omega)] at hr; omega
      · rw [rs hd' (by omega) (by omega)] at hr; omega
      · rw [rs hd' (by omega) (by omega)] at hr; omega
      · rw [rs hd' (by omega) (by omega)] at hr; omega
      · rw [rs hd' (by omega) (by omega)] at hr; omega
      · rw [rs hd' (by omega) (by omega)] at hr; omega
      · rw [ss (by decide) hd' (by omega) (by omega), m1] at hr; omega
      · rw [ss (by decide) hd' (by omega) (by omega), m2] at hr; omega
      · rw [ss (by decide) hd' (by omega) (by omega), m3] at hr; omega
      · rw [ss (by decide) hd' (by omega) (by omega), m4] at hr; omega
      · rw [ss (by decide) hd' (by omega) (by omega), m5] at hr; omega
      · rw [ss (by decide) hd' (by omega) (by omega), m6] at hr; omega

/-! ## 2D -/

/-- The slots of node `(i,j)` that `ell_set_bc_2D` overwrites. -/
def bc2 (nx ny i j s : Nat) : Prop :=
  Bdry2 nx ny i j ∨
  (j = 1 ∧ 2 ≤ i ∧ i + 2 < nx ∧ s ∈ [0, 1, 2]) ∨
  (j + 2 = ny ∧ 2 ≤ i ∧ i + 2 < nx ∧ s = 6) ∨
  (i = 1 ∧ 2 ≤ j ∧ j + 2 < ny ∧ s ∈ [0, 3, 6]) ∨
  (i = 1 ∧ j = 1 ∧ s ∈ [0, 1, 2, 3, 6]) ∨
  (i + 2 = nx ∧ j = 1 ∧ s ∈ [0, 1, 2, 5, 8]) ∨
  (i = 1 ∧ j + 2 = ny ∧ s ∈ [0, 3, 6, 7, 8])

set_option maxHeartbeats 1000000 in
theorem ellSetBc2D_eq {nF nx ny : Nat} {m : Ell α} (hx : 2 ≤ nx) (hy : 2 ≤ ny)
    (hnnz : m.nnz = 9 * nF) (hsize : m.vals.size = 9 * nF * (nx * ny * nF)) :
    ∃ v : Buf α, ellSetBc2D m nF nx ny = .ok { m with vals := v } ∧
      v.size = 9 * nF * (nx * ny * nF) ∧
      ∀ i j d s d2, i < nx → j < ny → d < nF → s < 9 → d2 < nF →
        (bc2 nx ny i j s → v.val (slotIx nF 9 (node2 nx i j) d s d2)
          = if s = 4 ∧ d = d2 then 1 else 0) ∧
        (¬ bc2 nx ny i j s → v.val (slotIx nF 9 (node2 nx i j) d s d2)
          = m.vals.val (slotIx nF 9 (node2 nx i j) d s d2)) := by
  obtain ⟨nrow, ncol, nnz, cols, vals⟩ := m
  simp only at hnnz hsize
  subst hnnz
  unfold ellSetBc2D
  have row : ∀ {n i j d : Nat}, n = node2 nx i j → i < nx → j < ny → d < nF →
      SetTo (9 * nF * (nx * ny * nF)) (bcVal nF 9 4) (RowSet nF 9 (node2 nx i j) d)
        (idRow (α := α) nF (9 * nF) 4 n d) := by
    rintro n i j d rfl hi hj hd
    exact idRow_setTo (node2_lt hi hj) hd (by omega)
  have zs : ∀ {n i j d : Nat} {tmp : List Nat}, n = node2 nx i j → i < nx → j < ny → d < nF →
      (∀ l ∈ tmp, l < 9 ∧ l ≠ 4) →
      SetTo (9 * nF * (nx * ny * nF)) (bcVal nF 9 4) (SlotSet nF 9 (node2 nx i j) d tmp)
        (zeroSlots (α := α) nF (9 * nF) n d tmp) := by
    rintro n i j d tmp rfl hi hj hd ht
    exact zeroSlots_setTo (node2_lt hi hj) hd ht
  have e1 : ∀ n, n = node2 nx n 0 := by intro n; simp [node2]
  have e2 : ∀ n, n + (ny - 1) * nx = node2 nx n (ny - 1) := by intro n; unfold node2; ring
  have e3 : ∀ n, (n + 1) * nx = node2 nx 0 (n + 1) := by intro n; unfold node2; ring
  have e4 : ∀ n, (n + 2) * nx - 1 = node2 nx (nx - 1) (n + 1) := by
    intro n; rw [node2_eq, Nat.add_mul, Nat.add_mul]; omega
  have e5 : ∀ t, nx + 2 + t = node2 nx (2 + t) 1 := by intro t; unfold node2; ring
  have e6 : ∀ t, (ny - 2) * nx + 2 + t = node2 nx (2 + t) (ny - 2) := by
    intro t; unfold node2; ring
  have e7 : ∀ t, 2 * nx + 1 + t * nx = node2 nx 1 (2 + t) := by intro t; unfold node2; ring
  have e8 : ∀ t, 4 * nx - 1 + t * nx = node2 nx (nx - 1) (3 + t) := by
    intro t; rw [node2_eq, Nat.add_mul]; omega
  have e9 : nx + 1 = node2 nx 1 1 := by unfold node2; ring
  have e10 : 2 * nx - 2 = node2 nx (nx - 2) 1 := by unfold node2; omega
  have e11 : (ny - 1) * nx - 1 = node2 nx (nx - 1) (ny - 2) := by
    obtain ⟨b, rfl⟩ : ∃ b, ny = b + 2 := ⟨ny - 2, by omega⟩
    rw [node2_eq]
    have : b + 2 - 1 = b + 1 := by omega
    rw [this, Nat.add_mul, Nat.add_sub_cancel]; omega
  have e12 : (ny - 2) * nx + 1 = node2 nx 1 (ny - 2) := by unfold node2; ring
  have H :=
    (SetTo.loop (n := nF) fun d hd => SetTo.loop (n := nx) fun n hn =>
      row (d := d) (e1 n) hn (show 0 < ny by omega) hd).bind <|
    (SetTo.loop (n := nF) fun d hd => SetTo.loop (n := nx) fun n hn =>
      row (d := d) (e2 n) hn (show ny - 1 < ny by omega) hd).bind <|
    (SetTo.loop (n := nF) fun d hd => SetTo.loop (n := ny - 2) fun n hn =>
      row (d := d) (e3 n) (show 0 < nx by omega) (show n + 1 < ny by omega) hd).bind <|
    (SetTo.loop (n := nF) fun d hd => SetTo.loop (n := ny - 2) fun n hn =>
      row (d := d) (e4 n) (show nx - 1 < nx by omega) (show n + 1 < ny by omega) hd).bind <|
    (SetTo.loop (n := nF) fun d hd => SetTo.loop (n := nx - 4) fun t ht =>
      zs (d := d) (tmp := [0, 1, 2]) (e5 t) (show 2 + t < nx by omega) (show 1 < ny by omega) hd
        (by decide)).bind <|
    (SetTo.loop (n := nF) fun d hd => SetTo.loop (n := nx - 4) fun t ht =>
      zs (d := d) (tmp := [6, 6, 6]) (e6 t) (show 2 + t < nx by omega) (show ny - 2 < ny by omega) hd
        (by decide)).bind <|
    (SetTo.loop (n := nF) fun d hd => SetTo.loop (n := ny - 4) fun t ht =>
      zs (d := d) (tmp := [0, 3, 6]) (e7 t) (show 1 < nx by omega) (show 2 + t < ny by omega) hd
        (by decide)).bind <|
    (SetTo.loop (n := nF) fun d hd => SetTo.loop (n := ny - 4) fun t ht =>
      zs (d := d) (tmp := [2, 5, 8]) (e8 t) (show nx - 1 < nx by omega) (show 3 + t < ny by omega) hd
        (by decide)).bind <|
    (SetTo.loop (n := nF) fun d hd =>
      zs (d := d) (tmp := [0, 1, 2, 3, 6]) e9 (show 1 < nx by omega) (show 1 < ny by omega) hd
        (by decide)).bind <|
    (SetTo.loop (n := nF) fun d hd =>
      zs (d := d) (tmp := [0, 1, 2, 5, 8]) e10 (show nx - 2 < nx by omega) (show 1 < ny by omega) hd
        (by decide)).bind <|
    (SetTo.loop (n := nF) fun d hd =>
      zs (d := d) (tmp := [2, 5, 6, 7, 8]) e11 (show nx - 1 < nx by omega)
        (show ny - 2 < ny by omega) hd (by decide)).bind <|
    (SetTo.loop (n := nF) fun d hd =>
      zs (d := d) (tmp := [0, 3, 6, 7, 8]) e12 (show 1 < nx by omega) (show ny - 2 < ny by omega) hd
        (by decide))
  obtain ⟨v, h1, h2, h3, h4⟩ := setBc_of H ⟨nrow, ncol, 9 * nF, cols, vals⟩ hsize
  refine ⟨v, ?_, h2, ?_⟩
  · rw [← h1]
    simp only [M_bind_assoc]
    rfl
  · intro i j d s d2 hi hj hd hs hd2
    have rs : ∀ {i' j' d' : Nat}, d' < nF → i' < nx →
        (RowSet nF 9 (node2 nx i' j') d' (slotIx nF 9 (node2 nx i j) d s d2) ↔
          (i = i' ∧ j = j') ∧ d = d') := by
      intro i' j' d' hd' hi'
      rw [RowSet_slotIx hd' hd hs hd2, node2_inj hi hi']
    have ss : ∀ {i' j' d' : Nat} {tmp : List Nat}, (∀ l ∈ tmp, l < 9) → d' < nF → i' < nx →
        (SlotSet nF 9 (node2 nx i' j') d' tmp (slotIx nF 9 (node2 nx i j) d s d2) ↔
          (i = i' ∧ j = j') ∧ d = d' ∧ s ∈ tmp) := by
      intro i' j' d' tmp ht hd' hi'
      rw [SlotSet_slotIx ht hd' hd hs hd2, node2_inj hi hi']
    clear row zs e1 e2 e3 e4 e5 e6 e7 e8 e9 e10 e11 e12 h1 h2 H
    constructor
    · intro hb
      rw [h3 _ ?_, bcVal_slotIx hd hs hd2]
      clear h3 h4
      by_cases hB : Bdry2 nx ny i j
      · by_cases c1 : j = 0
        · exact Or.inl ⟨d, hd, i, hi, (rs hd (by omega)).mpr ⟨by omega, rfl⟩⟩
        by_cases c2 : j + 1 = ny
        · exact Or.inr <| Or.inl ⟨d, hd, i, hi, (rs hd (by omega)).mpr ⟨by omega, rfl⟩⟩
        by_cases c3 : i = 0
        · exact Or.inr <| Or.inr <| Or.inl
            ⟨d, hd, j - 1, by omega, (rs hd (by omega)).mpr ⟨by omega, rfl⟩⟩
        have c4 : i + 1 = nx := by unfold Bdry2 at hB; omega
        exact Or.inr <| Or.inr <| Or.inr <| Or.inl
            ⟨d, hd, j - 1, by omega, (rs hd (by omega)).mpr ⟨by omega, rfl⟩⟩
      · have hb := hb.resolve_left hB
        rcases hb with ⟨c1, c2, c3, es⟩ | ⟨c1, c2, c3, es⟩ | ⟨c1, c2, c3, es⟩ | ⟨c1, c2, es⟩ |
          ⟨c1, c2, es⟩ | ⟨c1, c2, es⟩
        · exact Or.inr <| Or.inr <| Or.inr <| Or.inr <| Or.inl
            ⟨d, hd, i - 2, by omega, (ss (by decide) hd (by omega)).mpr ⟨by omega, rfl, es⟩⟩
        · exact Or.inr <| Or.inr <| Or.inr <| Or.inr <| Or.inr <| Or.inl
            ⟨d, hd, i - 2, by omega, (ss (by decide) hd (by omega)).mpr ⟨by omega, rfl, by simp [es]⟩⟩
        · exact Or.inr <| Or.inr <| Or.inr <| Or.inr <| Or.inr <| Or.inr <| Or.inl
            ⟨d, hd, j - 2, by omega, (ss (by decide) hd (by omega)).mpr ⟨by omega, rfl, es⟩⟩
        · exact Or.inr <| Or.inr <| Or.inr <| Or.inr <| Or.inr <| Or.inr <| Or.inr <| Or.inr <|
            Or.inl ⟨d, hd, (ss (by decide) hd (by omega)).mpr ⟨by omega, rfl, es⟩⟩
        · exact Or.inr <| Or.inr <| Or.inr <| Or.inr <| Or.inr <| Or.inr <| Or.inr <| Or.inr <|
            Or.inr <| Or.inl ⟨d, hd, (ss (by decide) hd (by omega)).mpr ⟨by omega, rfl, es⟩⟩
        · exact Or.inr <| Or.inr <| Or.inr <| Or.inr <| Or.inr <| Or.inr <| Or.inr <| Or.inr <|
            Or.inr <| Or.inr <| Or.inr ⟨d, hd, (ss (by decide) hd (by omega)).mpr ⟨by omega, rfl, es⟩⟩
    · intro hb
      rw [h4 _ ?_]
      intro hS
      apply hb
      clear h3 h4 hb
      rcases hS with ⟨d', hd', i', hi', hr⟩ | ⟨d', hd', i', hi', hr⟩ |
        ⟨d', hd', i', hi', hr⟩ | ⟨d', hd', i', hi', hr⟩ |
        ⟨d', hd', i', hi', hr⟩ | ⟨d', hd', i', hi', hr⟩ |
        ⟨d', hd', i', hi', hr⟩ | ⟨d', hd', i', hi', hr⟩ |
        ⟨d', hd', hr⟩ | ⟨d', hd', hr⟩ | ⟨d', hd', hr⟩ | ⟨d', hd', hr⟩
      · rw [rs hd' (by omega)] at hr; left; unfold Bdry2; clear rs ss; omega
      · rw [rs hd' (by omega)] at hr; left; unfold Bdry2; clear rs ss; omega
      · rw [rs hd' (by omega)] at hr; left; unfold Bdry2; clear rs ss; omega
      · rw [rs hd' (by omega)] at hr; left; unfold Bdry2; clear rs ss; omega
      · rw [ss (by decide) hd' (by omega)] at hr; clear rs
        exact Or.inr <| Or.inl ⟨by omega, by omega, by omega, hr.2.2⟩
      · rw [ss (by decide) hd' (by omega)] at hr; clear rs
        exact Or.inr <| Or.inr <| Or.inl ⟨by omega, by omega, by omega, by simpa using hr.2.2⟩
      · rw [ss (by decide) hd' (by omega)] at hr; clear rs
        exact Or.inr <| Or.inr <| Or.inr <| Or.inl ⟨by omega, by omega, by omega, hr.2.2⟩
      · rw [ss (by decide) hd' (by omega)] at hr; left; unfold Bdry2; clear rs ss; omega
      · rw [ss (by decide) hd' (by omega)] at hr; clear rs
        exact Or.inr <| Or.inr <| Or.inr <| Or.inr <| Or.inl ⟨by omega, by omega, hr.2.2⟩
      · rw [ss (by decide) hd' (by omega)] at hr; clear rs
        exact Or.inr <| Or.inr <| Or.inr <| Or.inr <| Or.inr <| Or.inl ⟨by omega, by omega, hr.2.2⟩
      · rw [ss (by decide) hd' (by omega)] at hr; left; unfold Bdry2; clear rs ss; omega
      · rw [ss (by decide) hd' (by omega)] at hr; clear rs
        exact Or.inr <| Or.inr <| Or.inr <| Or.inr <| Or.inr <| Or.inr ⟨by omega, by omega, hr.2.2⟩

end

end Verif
