import Verif.Lemmas.Info
import Verif.Lemmas.Client
import Verif.Props.VtuText

/-!
# The info files as text: properties C85, C86
-/

namespace Verif.Props
open Verif Spec

section
variable {α : Type} [Scalar α] {env : Env α} {a : Args α} {j : Junk α} {f : Files α} {fmt : α → List Char}

/-! ### C85 -/

/-- The columns of a Gauss point in the convergence file. -/
def colsConv (fmt : α → List Char) (nvoi : Nat) (g : Gp α) : List (List Char) :=
  [decInt (if g.intVarsN.isSome then 1 else 0), fmt g.invMax]
    ++ (List.range (1 + nvoi)).flatMap fun i => [decInt (g.nrIts i), fmt (g.nrErr i)]

/-- The columns of a Gauss point in the strain, stress and tangent file. -/
def colsEps (fmt : α → List Char) (g : Gp α) : List (List Char) :=
  (List.range 6).map (fun i => fmt (g.macroStrain i)) ++ (List.range 6).map (fun i => fmt (g.macroStress i))
    ++ (List.range 36).map (fun i => fmt (g.macroCtan i))

/-- The columns of a Gauss point in the file of internal variables. -/
def colsVars (fmt : α → List Char) (n : Nat) (g : Gp α) : List (List Char) :=
  (List.range n).map fun i => fmt (match g.intVarsN with | none => 0 | some b => b.val i)

/-- The rows of a text, each taken apart into groups of columns. -/
def tableOf (l : List Char) : List (List (List (List Char))) := (rows l).map groups

/-- The info files after a number of writes, read as text. -/
theorem specFile_read {fmt : α → List Char} (hf : FmtCols fmt) (w : Nat → Nat) (nvoi n : Nat)
    (snaps : List (List (Gp α))) :
    (tableOf (textPad fmt w (specFile specHeaderConv (specConv nvoi) snaps))
        = (snaps.filter fun l => !l.isEmpty).map (fun l => l.map (colsConv fmt nvoi)) ∧
      comments (textPad fmt w (specFile specHeaderConv (specConv nvoi) snaps))
        = match snaps with | [] => [] | l :: _ => textConv (l.map fun g => decInt g.id)) ∧
    (tableOf (textPad fmt w (specFile specHeaderEps specEps snaps))
        = (snaps.filter fun l => !l.isEmpty).map (fun l => l.map (colsEps fmt)) ∧
      comments (textPad fmt w (specFile specHeaderEps specEps snaps))
        = match snaps with | [] => [] | l :: _ => textEps (l.map fun g => decInt g.id)) ∧
    (tableOf (textPad fmt w (specFile (fun _ => []) (specVars n) snaps))
        = (snaps.filter fun l => !l.isEmpty).map (fun l => l.map (colsVars fmt n)) ∧
      comments (textPad fmt w (specFile (fun _ => []) (specVars n) snaps)) = []) := by
  have r1 := fun w => records_read (fmt := fmt) hf (X := fun g : Gp α =>
    [.int (match g.intVarsN with | none => 0 | some _ => 1), .num g.invMax]
    ++ (List.range (1 + nvoi)).flatMap (fun i => [.int (g.nrIts i), .num (g.nrErr i)])) (by
      intro g t ht
      rcases List.mem_append.1 ht with h | h
      · simp only [List.mem_cons, List.not_mem_nil, or_false] at h
        rcases h with rfl | rfl <;> rfl
      · obtain ⟨i, -, h⟩ := List.mem_flatMap.1 h
        simp only [List.mem_cons, List.not_mem_nil, or_false] at h
        rcases h with rfl | rfl <;> rfl) snaps w
  have e1 : ∀ g : Gp α, ([Tok.int (match g.intVarsN with | none => 0 | some _ => 1), Tok.num g.invMax]
    ++ (List.range (1 + nvoi)).flatMap (fun i => [Tok.int (g.nrIts i), Tok.num (g.nrErr i)])).map (Tok.text fmt)
      = colsConv fmt nvoi g := by
    intro g
    unfold colsConv
    rw [List.map_append, List.map_flatMap]
    cases g.intVarsN <;> rfl
  have r2 := fun w => records_read (fmt := fmt) hf (X := fun g : Gp α =>
    (List.range 6).map (fun i => Tok.num (g.macroStrain i)) ++ (List.range 6).map (fun i => Tok.num (g.macroStress i))
    ++ (List.range 36).map (fun i => Tok.num (g.macroCtan i))) (by
      intro g t ht
      rcases List.mem_append.1 ht with h | h
      · rcases List.mem_append.1 h with h | h <;> obtain ⟨i, -, rfl⟩ := List.mem_map.1 h <;> rfl
      · obtain ⟨i, -, rfl⟩ := List.mem_map.1 h
        rfl) snaps w
  have e2 : ∀ g : Gp α, ((List.range 6).map (fun i => Tok.num (g.macroStrain i))
    ++ (List.range 6).map (fun i => Tok.num (g.macroStress i))
    ++ (List.range 36).map (fun i => Tok.num (g.macroCtan i))).map (Tok.text fmt) = colsEps fmt g := by
    intro g
    unfold colsEps
    simp only [List.map_append, List.map_map]
    rfl
  have r3 := fun w => records_read (fmt := fmt) hf (X := fun g : Gp α =>
    (List.range n).map (fun i => Tok.num (match g.intVarsN with | none => 0 | some b => b.val i))) (by
      intro g t ht
      obtain ⟨i, -, rfl⟩ := List.mem_map.1 ht
      rfl) snaps w
  have e3 : ∀ g : Gp α, ((List.range n).map (fun i =>
      Tok.num (match g.intVarsN with | none => 0 | some b => b.val i))).map (Tok.text fmt)
      = colsVars fmt n g := by
    intro g
    unfold colsVars
    rw [List.map_map]
    rfl
  simp only [e1] at r1
  simp only [e2] at r2
  simp only [e3] at r3
  have e0 : specFile (fun _ => []) (specVars n) snaps
      = snaps.flatMap fun l => l.flatMap (specVars n) ++ [.endl] := by
    cases snaps <;> rfl
  refine ⟨?_, ?_, by rw [e0]; exact r3 w⟩
  · cases snaps with
    | nil => exact ⟨rfl, rfl⟩
    | cons l snaps =>
      obtain ⟨w', h1, h2⟩ := headerConv_read hf l w
        ((l :: snaps).flatMap fun l => l.flatMap (specConv nvoi) ++ [.endl])
      constructor
      · unfold tableOf specFile
        rw [h1]
        exact (r1 w').1
      · unfold specFile
        rw [h2]
        refine (congrArg _ (r1 w').2).trans ?_
        rw [List.append_nil]
  · cases snaps with
    | nil => exact ⟨rfl, rfl⟩
    | cons l snaps =>
      obtain ⟨w', h1, h2⟩ := headerEps_read hf l w
        ((l :: snaps).flatMap fun l => l.flatMap specEps ++ [.endl])
      constructor
      · unfold tableOf specFile
        rw [h1]
        exact (r2 w').1
      · unfold specFile
        rw [h2]
        refine (congrArg _ (r2 w').2).trans ?_
        rw [List.append_nil]

theorem run_materials {calls : List (Call α)} {s0 s : ObjFiles α} (h : run env calls s0 = .ok s) :
    s.files.materials = s0.files.materials := by
  induction calls using List.reverseRecOn generalizing s with
  | nil =>
    simp only [run, pure_ok_iff] at h
    rw [h]
  | append_singleton l k ih =>
    rw [run_snoc] at h
    obtain ⟨s1, r, h1, h2, rfl⟩ := h
    rw [← ih h1]
    by_cases hk : k = .writeInfo
    · subst hk
      simp only [step, writeInfoFiles, bind_ok_iff, pure_ok_iff] at h2
      obtain ⟨x, ⟨v, -, rfl⟩, rfl⟩ := h2
      dsimp only
      split <;> rfl
    · exact (step_files h2 hk).2.2.2.2

/-- The materials file. -/
def matTokens (p : Nat → α) : List (Tok α) :=
  [.num (p 0), .sp, .num (p 1), .sp, .num (p 2), .sp, .num (p 3), .endl,
   .num (p 10), .sp, .num (p 11), .sp, .num (p 12), .sp, .num (p 13), .endl]

theorem materials_read (hf : FmtCols fmt) (w : Nat → Nat) (p : Nat → α) :
    rows (textPad fmt w (matTokens p)) = [[fmt (p 0), fmt (p 1), fmt (p 2), fmt (p 3)],
      [fmt (p 10), fmt (p 11), fmt (p 12), fmt (p 13)]] := by
  have line : ∀ (x0 x1 x2 x3 : α) (w : Nat → Nat) (R : List Char),
      rows (padText fmt (w 0) (.num x0) ++ ' ' :: (padText fmt (w 1) (.num x1) ++ ' ' ::
        (padText fmt (w 2) (.num x2) ++ ' ' :: (padText fmt (w 3) (.num x3) ++ '\n' :: R))))
        = [fmt x0, fmt x1, fmt x2, fmt x3] :: rows R := by
    intro x0 x1 x2 x3 w R
    have hw : ∀ n x R', words (padText fmt n (.num x) ++ ' ' :: R') = fmt x :: words R' := by
      intro n x R'
      show words (List.replicate n ' ' ++ fmt x ++ ' ' :: R') = _
      rw [List.append_assoc, words_pad, words_word (hf.some x) (fun c h => (hf.clean x c h).1) rfl]
    have hl : ∀ n x, words (padText fmt n (.num x)) = [fmt x] := by
      intro n x
      have h1 := hw n x []
      rw [words_append rfl] at h1
      rw [show words ([] : List Char) = [] from rfl, List.append_nil] at h1
      exact h1
    have hn : ∀ n x, '\n' ∉ padText fmt n (.num x) := by
      intro n x hm
      rcases List.mem_append.1 hm with hm | hm
      · exact absurd (List.eq_of_mem_replicate hm) (by decide)
      · exact nl_blank (hf.clean x _ hm).1 rfl
    have e : padText fmt (w 0) (.num x0) ++ ' ' :: (padText fmt (w 1) (.num x1) ++ ' ' ::
        (padText fmt (w 2) (.num x2) ++ ' ' :: (padText fmt (w 3) (.num x3) ++ '\n' :: R)))
        = (padText fmt (w 0) (.num x0) ++ ' ' :: (padText fmt (w 1) (.num x1) ++ ' ' ::
        (padText fmt (w 2) (.num x2) ++ ' ' :: padText fmt (w 3) (.num x3)))) ++ '\n' :: R := by
      simp only [List.append_assoc, List.cons_append]
    have hwd : words (padText fmt (w 0) (.num x0) ++ ' ' :: (padText fmt (w 1) (.num x1) ++ ' ' ::
        (padText fmt (w 2) (.num x2) ++ ' ' :: padText fmt (w 3) (.num x3)))) = [fmt x0, fmt x1, fmt x2, fmt x3] := by
      rw [hw, hw, hw, hl]
    rw [e, rows_line, hwd, if_pos]
    · rfl
    · refine ⟨rfl, ?_⟩
      unfold isComment
      rw [hwd]
      split
      · next h =>
        simp only [List.cons.injEq] at h
        exact absurd rfl (hf.clean x0 '#' (by rw [h.1]; exact List.mem_cons_self ..)).2.1
      · rfl
    · simp only [List.mem_append, List.mem_cons, hn, false_or, or_false, not_or]
      decide
  exact (line (p 0) (p 1) (p 2) (p 3) (fun k => w (2 * k)) _).trans
    (congrArg _ (line (p 10) (p 11) (p 12) (p 13) (fun k => w (8 + 2 * k)) []))

/-- C85: after construction and any calls, and however floating point numbers are printed and padded, a
reader of text tables finds in the three info files one row for each `write_info_files` call made while at
least one Gauss point was registered.  Each row has one group of columns per Gauss point registered at
that time, in registration order, and the columns are the values it had.  The materials file has a row for
each of the two materials, with `E`, `nu`, `Sy` and `Ka` as the user passed them. -/
theorem C85_tables (ha : a.Ok) (calls : List (Call α)) (s : ObjFiles α)
    (h : (constructF env a j f >>= run env calls) = .ok s) (hf : FmtCols fmt) (w : Nat → Nat) :
    ∃ s0, constructF env a j f = .ok s0 ∧
    tableOf (textPad fmt w s.files.convergence)
      = ((infoSnaps env calls s0).filter fun l => !l.isEmpty).map
        (fun l => l.map (colsConv fmt (if a.dim = 2 then 3 else 6))) ∧
    tableOf (textPad fmt w s.files.epsSigCtan)
      = ((infoSnaps env calls s0).filter fun l => !l.isEmpty).map (fun l => l.map (colsEps fmt)) ∧
    tableOf (textPad fmt w s.files.intVarsN)
      = ((infoSnaps env calls s0).filter fun l => !l.isEmpty).map
        (fun l => l.map (colsVars fmt (if a.dim = 2 then (a.size 0 - 1) * (a.size 1 - 1) * 8 * 7
          else (a.size 0 - 1) * (a.size 1 - 1) * (a.size 2 - 1) * 8 * 7))) ∧
    rows (textPad fmt w s.files.materials)
      = [[fmt (a.params 0), fmt (a.params 1), fmt (a.params 2), fmt (a.params 3)],
         [fmt (a.params 10), fmt (a.params 11), fmt (a.params 12), fmt (a.params 13)]] := by
  obtain ⟨s0, h0, -, h1, h2, h3⟩ := C51_object env a j f calls s h
  obtain ⟨r1, r2, r3⟩ := specFile_read hf w s0.obj.cfg.nvoi s0.obj.cfg.numIntVars (infoSnaps env calls s0)
  have h4 := h0
  simp only [bind_ok_iff, constructF, pure_ok_iff] at h4
  obtain ⟨o, ho, h4⟩ := h4
  obtain ⟨et, ct, hc⟩ := (construct_built ha ho).1.eq
  have hm : s.files.materials = s0.files.materials := by
    rw [bind_ok_iff] at h
    obtain ⟨s0', h0', hr⟩ := h
    rw [h0] at h0'
    cases h0'
    exact run_materials hr
  rw [h1, h2, h3, hm]
  have e : s0.files.materials = matTokens fun k => a.params k := by
    rw [← h4]
    show (ctorFiles o.cfg f).materials = _
    rw [hc]
    rfl
  have hd : s0.obj.cfg.nvoi = if a.dim = 2 then 3 else 6 := by
    rw [← h4]
    show o.cfg.nvoi = _
    rw [hc]
    rfl
  have hn : s0.obj.cfg.numIntVars = if a.dim = 2 then (a.size 0 - 1) * (a.size 1 - 1) * 8 * 7
          else (a.size 0 - 1) * (a.size 1 - 1) * (a.size 2 - 1) * 8 * 7 := by
    rw [← h4]
    show o.cfg.numIntVars = _
    rw [hc]
    show (if a.dim = 2 then (a.size 0 - 1) * (a.size 1 - 1) else (a.size 0 - 1) * (a.size 1 - 1) *
      ((if a.dim = 2 then 1 else a.size 2) - 1)) * 8 * 7 = _
    split <;> rfl
  refine ⟨s0, h0, hd ▸ r1.1, r2.1, hn ▸ r3.1, ?_⟩
  rw [e]
  exact materials_read hf w _

/-! ### C86 -/

/-- The ids listed by the first comment of a file. -/
def headerIds (l : List Char) : List (List Char) :=
  match comments l with
  | [] => []
  | c :: _ => (c.drop 3).takeWhile (· != ['#'])

/-- The comments of a file announce the quantity `name` in the column `num`. -/
def Announces (l : List Char) (name num : String) : Prop :=
  ∃ c ∈ comments l, [name.toList, num.toList] <:+: c

/-- The column number `k + 1` of each group of each row. -/
def column (k : Nat) (l : List Char) : List (List (Option (List Char))) :=
  (tableOf l).map fun r => r.map fun c => c[k]?

theorem step_prefix {s : ObjFiles α} {k : Call α} {r : Stepped α} (h : step env s k = .ok r) :
    s.obj.gauss.map Gp.id <+: r.state.obj.gauss.map Gp.id := by
  have hg := step_gauss h
  cases k with
  | setStrain id eps =>
    simp only at hg
    rw [hg, setStrainList_ids]
    split
    · exact List.prefix_rfl
    · exact List.prefix_append _ _
  | homogenize =>
    obtain ⟨w, hw, hg, _⟩ := hg
    have hf := homogenizeList_forall hw
    rw [← hg] at hf
    rw [forall₂_map_eq hf fun a b hab => hab.id]
  | updateVars =>
    rw [forall₂_map_eq (updateList_forall hg) fun a b hab => hab.id]
  | getStress id buf => rw [hg]
  | getCtan id buf => rw [hg]
  | getNl id => rw [hg]
  | output t id => rw [hg]
  | writeInfo => rw [hg]

theorem infoSnaps_prefix (calls : List (Call α)) (s : ObjFiles α) :
    ∀ l ∈ infoSnaps env calls s, s.obj.gauss.map Gp.id <+: l.map Gp.id := by
  induction calls generalizing s with
  | nil => exact fun l h => by cases h
  | cons k calls ih =>
    intro l hl
    rcases List.mem_append.1 hl with h | h
    · cases k <;> simp only [List.mem_singleton, List.not_mem_nil] at h
      rw [h]
    · cases hs : step env s k with
      | error e => rw [hs] at h; cases h
      | ok r =>
        rw [hs] at h
        exact (step_prefix hs).trans (ih r.state l h)

/-- The Gauss points of the first write come first in every later one. -/
theorem infoSnaps_head (calls : List (Call α)) (s : ObjFiles α) {l0 : List (Gp α)}
    {rest : List (List (Gp α))} (h : infoSnaps env calls s = l0 :: rest) :
    ∀ l ∈ l0 :: rest, l0.map Gp.id <+: l.map Gp.id := by
  induction calls generalizing s with
  | nil => cases h
  | cons k calls ih =>
    have h' := h
    unfold infoSnaps at h
    by_cases hk : k = .writeInfo
    · subst hk
      have h0 : s.obj.gauss = l0 := (List.cons.inj h).1
      rw [← h', ← h0]
      exact infoSnaps_prefix _ s
    · have h : (match step env s k with | .ok r => infoSnaps env calls r.state | .error _ => [])
          = l0 :: rest := by
        rw [← h]
        cases k <;> first | rfl | exact absurd rfl hk
      cases hs : step env s k with
      | error e => rw [hs] at h; cases h
      | ok r =>
        rw [hs] at h
        exact ih r.state h

theorem ids_take (ids : List Int) (R : List (List Char)) (hR : ∀ x ∈ R.head?, x = ['#']) :
    (ids.map decInt ++ R).takeWhile (· != ['#']) = ids.map decInt := by
  have hd : ∀ i : Int, decInt i ≠ ['#'] := by
    intro i h
    have := number_text (α := Unit) (fmt := fun _ => ['1']) ⟨fun _ => by simp, fun _ x hx => by
      rw [List.mem_singleton.1 hx]; decide⟩ (t := .int i) rfl
    exact (this.2 '#' (by show '#' ∈ decInt i; rw [h]; simp)).2.1 rfl
  induction ids with
  | nil =>
    cases R with
    | nil => rfl
    | cons x R =>
      rw [hR x rfl]
      rfl
  | cons i ids ih =>
    rw [List.map_cons, List.cons_append, List.takeWhile_cons, if_pos, ih]
    simpa using hd i

/-- C86, what holds: after the first write the headers list the Gauss points registered then, in the order
of the groups of columns, and these are the first groups of every later row.  The columns announced as
`nl_flag [1]`, `inv_max [2]`, `epsxx [1]`, `epsyy [2]` and `sigxx [7]` are where the header says.  Missing:
the other columns, and the ids of Gauss points registered after the first write. -/
theorem C86_header_partial (calls : List (Call α)) (s : ObjFiles α)
    (h : (constructF env a j f >>= run env calls) = .ok s) (hf : FmtCols fmt) (w : Nat → Nat) :
    ∃ s0, constructF env a j f = .ok s0 ∧
    (∀ l0 rest, infoSnaps env calls s0 = l0 :: rest →
      headerIds (textPad fmt w s.files.convergence) = (l0.map Gp.id).map decInt ∧
      headerIds (textPad fmt w s.files.epsSigCtan) = (l0.map Gp.id).map decInt ∧
      (∀ l ∈ infoSnaps env calls s0, l0.map Gp.id <+: l.map Gp.id) ∧
      Announces (textPad fmt w s.files.convergence) "nl_flag" "[1]" ∧
      Announces (textPad fmt w s.files.convergence) "inv_max" "[2]" ∧
      Announces (textPad fmt w s.files.epsSigCtan) "epsxx" "[1]" ∧
      Announces (textPad fmt w s.files.epsSigCtan) "epsyy" "[2]" ∧
      Announces (textPad fmt w s.files.epsSigCtan) "sigxx" "[7]") ∧
    column 0 (textPad fmt w s.files.convergence)
      = ((infoSnaps env calls s0).filter fun l => !l.isEmpty).map (fun l => l.map fun g =>
          some (decInt (if g.intVarsN.isSome then 1 else 0))) ∧
    column 1 (textPad fmt w s.files.convergence)
      = ((infoSnaps env calls s0).filter fun l => !l.isEmpty).map (fun l => l.map fun g =>
          some (fmt g.invMax)) ∧
    column 0 (textPad fmt w s.files.epsSigCtan)
      = ((infoSnaps env calls s0).filter fun l => !l.isEmpty).map (fun l => l.map fun g =>
          some (fmt (g.macroStrain 0))) ∧
    column 1 (textPad fmt w s.files.epsSigCtan)
      = ((infoSnaps env calls s0).filter fun l => !l.isEmpty).map (fun l => l.map fun g =>
          some (fmt (g.macroStrain 1))) ∧
    column 6 (textPad fmt w s.files.epsSigCtan)
      = ((infoSnaps env calls s0).filter fun l => !l.isEmpty).map (fun l => l.map fun g =>
          some (fmt (g.macroStress 0))) := by
  obtain ⟨s0, h0, -, h1, h2, h3⟩ := C51_object env a j f calls s h
  obtain ⟨r1, r2, -⟩ := specFile_read hf w s0.obj.cfg.nvoi 0 (infoSnaps env calls s0)
  rw [← h1] at r1
  rw [← h2] at r2
  refine ⟨s0, h0, fun l0 rest hl => ?_, ?_, ?_, ?_, ?_, ?_⟩
  · have c1 := r1.2
    have c2 := r2.2
    rw [hl] at c1 c2
    dsimp only at c1 c2
    have hm : l0.map (fun g => decInt g.id) = (l0.map Gp.id).map decInt := by rw [List.map_map]; rfl
    rw [hm] at c1 c2
    refine ⟨?_, ?_, ?_, ?_, ?_, ?_, ?_, ?_⟩
    · unfold headerIds
      rw [c1]
      show List.takeWhile _ ((l0.map Gp.id).map decInt) = _
      have := ids_take (l0.map Gp.id) [] (fun x hx => by cases hx)
      rwa [List.append_nil] at this
    · unfold headerIds
      rw [c2]
      show List.takeWhile _ ((l0.map Gp.id).map decInt ++ ("#".toList :: _)) = _
      exact ids_take (l0.map Gp.id) ("#".toList :: _) (fun x hx => by cases hx; rfl)
    · rw [hl]
      exact infoSnaps_head calls s0 hl
    · exact ⟨_, by rw [c1]; exact List.mem_cons_of_mem _ (List.mem_cons_self ..), ["#".toList], _, rfl⟩
    · exact ⟨_, by rw [c1]; exact List.mem_cons_of_mem _ (List.mem_cons_self ..),
        ["#".toList, "nl_flag".toList, "[1]".toList, "#".toList], _, rfl⟩
    · exact ⟨_, by rw [c2]; exact List.mem_cons_self ..,
        ["#".toList, "gp_id".toList, ":".toList] ++ (l0.map Gp.id).map decInt ++ ["#".toList], _, by
          rw [List.append_assoc, List.append_assoc]; rfl⟩
    · exact ⟨_, by rw [c2]; exact List.mem_cons_self ..,
        ["#".toList, "gp_id".toList, ":".toList] ++ (l0.map Gp.id).map decInt ++
          ["#".toList, "epsxx".toList, "[1]".toList, "#".toList], _, by
          rw [List.append_assoc, List.append_assoc]; rfl⟩
    · exact ⟨_, by rw [c2]; exact List.mem_cons_self ..,
        ["#".toList, "gp_id".toList, ":".toList] ++ (l0.map Gp.id).map decInt ++
          ["#".toList, "epsxx".toList, "[1]".toList, "#".toList, "epsyy".toList, "[2]".toList, "#".toList,
           "epszz[3]".toList, "#".toList, "epsxy[4]".toList, "#".toList, "epsxz[5]".toList, "#".toList,
           "epsyz[6]#".toList], _, by
          rw [List.append_assoc, List.append_assoc]; rfl⟩
  · unfold column
    rw [r1.1, List.map_map]
    refine List.map_congr_left fun l _ => ?_
    exact List.map_map ..
  · unfold column
    rw [r1.1, List.map_map]
    refine List.map_congr_left fun l _ => ?_
    exact List.map_map ..
  · unfold column
    rw [r2.1, List.map_map]
    refine List.map_congr_left fun l _ => ?_
    exact List.map_map ..
  · unfold column
    rw [r2.1, List.map_map]
    refine List.map_congr_left fun l _ => ?_
    exact List.map_map ..
  · unfold column
    rw [r2.1, List.map_map]
    refine List.map_congr_left fun l _ => ?_
    exact List.map_map ..

end

/-- Printing every number as `1.5`. -/
theorem fmtCols_ex : FmtCols (fun _ : ℝ => "1.5".toList) where
  some := fun _ => List.cons_ne_nil '1' _
  clean := fun _ x hx => by
    have hx : x ∈ ['1', '.', '5'] := hx
    fin_cases hx <;> decide

/-- A run that writes twice, a second Gauss point being registered in between. -/
theorem ex_info (e : Nat → ℝ) : ∃ s0 s g1 g2 g3, constructF exEnv exArgs3 exJunk ⟨[], [], [], [], fun _ _ => none⟩ = .ok s0 ∧
    (constructF exEnv exArgs3 exJunk ⟨[], [], [], [], fun _ _ => none⟩ >>=
      run exEnv [.setStrain 7 e, .writeInfo, .setStrain 8 e, .writeInfo]) = .ok s ∧
    infoSnaps exEnv [.setStrain 7 e, .writeInfo, .setStrain 8 e, .writeInfo] s0 = [[g1], [g2, g3]] ∧
    g1.id = 7 ∧ g2.id = 7 ∧ g3.id = 8 := by
  have key : Sane exEnv (fun _ => True) (constructF exEnv exArgs3 exJunk ⟨[], [], [], [], fun _ _ => none⟩ >>=
      run exEnv [.setStrain 7 e, .writeInfo, .setStrain 8 e, .writeInfo]) := by
    refine Sane.bind (P := fun s : ObjFiles ℝ => s.obj.Ok) ?_ fun s hs =>
      (run_sane _ hs).mono fun _ _ => trivial
    exact (construct_sane exEnv exArgs3_ok exJunk).bind fun o ho => Sane.ok ho
  obtain ⟨s, h, -⟩ := key.returns exEnv_quick
  have h' := h
  rw [bind_ok_iff] at h'
  obtain ⟨s0, h0, hr⟩ := h'
  have hfr := construct_fresh h0
  have hr3 := (run_snoc (l := [.setStrain 7 e, .writeInfo, .setStrain 8 e])).1 hr
  obtain ⟨s3, r3, q3, -, -⟩ := hr3
  obtain ⟨s2, r2, q2, -, -⟩ := (run_snoc (l := [.setStrain 7 e, .writeInfo])).1 q3
  obtain ⟨s1, r1, q1, -, -⟩ := (run_snoc (l := [.setStrain 7 e])).1 q2
  have q0 : run exEnv [] s0 = .ok s0 := rfl
  have i3 : infoSnaps exEnv [.setStrain 7 e, .writeInfo, .setStrain 8 e, .writeInfo] s0
      = infoSnaps exEnv [.setStrain 7 e, .writeInfo, .setStrain 8 e] s0 ++ [s3.obj.gauss] :=
    infoSnaps_snoc (k := .writeInfo) q3
  have i2 : infoSnaps exEnv [.setStrain 7 e, .writeInfo, .setStrain 8 e] s0
      = infoSnaps exEnv [.setStrain 7 e, .writeInfo] s0 ++ [] := infoSnaps_snoc (k := .setStrain 8 e) q2
  have i1 : infoSnaps exEnv [.setStrain 7 e, .writeInfo] s0
      = infoSnaps exEnv [.setStrain 7 e] s0 ++ [s1.obj.gauss] := infoSnaps_snoc (k := .writeInfo) q1
  have i0 : infoSnaps exEnv [.setStrain 7 e] s0 = [] := infoSnaps_snoc (k := .setStrain 7 e) q0
  have m1 : s1.obj.gauss.map Gp.id = [7] := (C39_map exEnv _ s0 s1 hfr q1).1
  have m3 : s3.obj.gauss.map Gp.id = [7, 8] := (C39_map exEnv _ s0 s3 hfr q3).1
  obtain ⟨g1, l1, e1, a1, b1⟩ := List.map_eq_cons_iff.1 m1
  obtain ⟨g2, l2, e2, a2, b2⟩ := List.map_eq_cons_iff.1 m3
  obtain ⟨g3, l3, e3, a3, b3⟩ := List.map_eq_cons_iff.1 b2
  rw [List.map_eq_nil_iff] at b1 b3
  subst b1 e3 b3
  refine ⟨s0, s, g1, g2, g3, h0, h, ?_, a1, a2, a3⟩
  rw [i3, i2, i1, i0, e1, e2]
  rfl

/-- Two rows, of one and of two groups of 16 columns. -/
example (w : Nat → Nat) : ∃ s, (constructF exEnv exArgs3 exJunk ⟨[], [], [], [], fun _ _ => none⟩ >>=
      run exEnv [.setStrain 7 (fun _ => 1), .writeInfo, .setStrain 8 (fun _ => 1), .writeInfo]) = .ok s ∧
    ∃ g1 g2 g3, tableOf (textPad (fun _ => "1.5".toList) w s.files.convergence) = [[g1], [g2, g3]] ∧
      g1.length = 16 ∧ g2.length = 16 ∧ g3.length = 16 := by
  obtain ⟨s0, s, g1, g2, g3, h0, h, hi, -⟩ := ex_info fun _ => 1
  obtain ⟨s0', h0', t, -⟩ := C85_tables exArgs3_ok _ s h fmtCols_ex w
  rw [h0] at h0'
  cases h0'
  rw [hi] at t
  refine ⟨s, h, _, _, _, t, ?_, ?_, ?_⟩ <;> rfl

/-- The header of that run lists Gauss point 7, and the stress `sigxx` stands in column 7 of both rows. -/
example (w : Nat → Nat) : ∃ s, (constructF exEnv exArgs3 exJunk ⟨[], [], [], [], fun _ _ => none⟩ >>=
      run exEnv [.setStrain 7 (fun _ => 1), .writeInfo, .setStrain 8 (fun _ => 1), .writeInfo]) = .ok s ∧
    headerIds (textPad (fun _ => "1.5".toList) w s.files.convergence) = [decInt 7] ∧
    Announces (textPad (fun _ => "1.5".toList) w s.files.epsSigCtan) "sigxx" "[7]" ∧
    column 6 (textPad (fun _ => "1.5".toList) w s.files.epsSigCtan)
      = [[some "1.5".toList], [some "1.5".toList, some "1.5".toList]] := by
  obtain ⟨s0, s, g1, g2, g3, h0, h, hi, i1, -⟩ := ex_info fun _ => 1
  obtain ⟨s0', h0', H, -, -, -, -, t⟩ := C86_header_partial _ s h fmtCols_ex w
  rw [h0] at h0'
  cases h0'
  rw [hi] at t
  obtain ⟨H1, -, -, -, -, -, -, H2⟩ := H _ _ hi
  rw [List.map_singleton, i1] at H1
  exact ⟨s, h, H1, H2, t⟩

theorem decInt_no_dot (i : Int) : '.' ∉ decInt i := by
  have hn : ∀ n, '.' ∉ decNat n := by
    intro n
    induction n using Nat.strong_induction_on with
    | _ n ih =>
      have hc : ∀ d, d < 10 → '.' ≠ Char.ofNat (48 + d) := by
        intro d hd
        interval_cases d <;> decide
      unfold decNat
      split
      · next h => exact fun hx => hc n h (List.mem_singleton.1 hx)
      · intro hx
        rcases List.mem_append.1 hx with h | h
        · exact ih (n / 10) (by omega) h
        · exact hc _ (Nat.mod_lt _ (by decide)) (List.mem_singleton.1 h)
  cases i with
  | ofNat n => exact hn n
  | negSucc n =>
    intro hx
    rcases List.mem_cons.1 hx with h | h
    · exact absurd h (by decide)
    · exact hn _ h

/-- C86, refuted for the columns: the convergence file announces the tolerance of the first invariant in
its third column, but the number of Newton iterations of the first solve stands there. -/
theorem C86_columns_fails : ∃ s s0, constructF exEnv exArgs3 exJunk ⟨[], [], [], [], fun _ _ => none⟩ = .ok s0 ∧
    (constructF exEnv exArgs3 exJunk ⟨[], [], [], [], fun _ _ => none⟩ >>=
      run exEnv [.setStrain 7 (fun _ => 1), .writeInfo, .setStrain 8 (fun _ => 1), .writeInfo]) = .ok s ∧
    ∃ fmt : ℝ → List Char, FmtCols fmt ∧ ∀ w,
      Announces (textPad fmt w s.files.convergence) "inv_tol" "[3]" ∧
      ∀ r ∈ column 2 (textPad fmt w s.files.convergence), ∀ x ∈ r, x ≠ some (fmt s0.obj.cfg.invTol) := by
  obtain ⟨s0, s, g1, g2, g3, h0, h, hi, -⟩ := ex_info fun _ => 1
  refine ⟨s, s0, h0, h, _, fmtCols_ex, fun w => ?_⟩
  obtain ⟨s0', h0', t, -⟩ := C85_tables exArgs3_ok _ s h fmtCols_ex w
  obtain ⟨s0'', h0'', -, h1, -, -⟩ := C51_object _ _ _ _ _ _ h
  rw [h0] at h0' h0''
  cases h0'
  cases h0''
  rw [hi] at t h1
  have c := (specFile_read fmtCols_ex w s0.obj.cfg.nvoi 0 [[g1], [g2, g3]]).1.2
  rw [← h1] at c
  refine ⟨⟨_, by rw [c]; exact List.mem_cons_of_mem _ (List.mem_cons_self ..),
    ["#".toList, "nl_flag".toList, "[1]".toList, "#".toList, "inv_max".toList, "[2]".toList, "#".toList], [], rfl⟩, ?_⟩
  have hd : ∀ i : Int, decInt i ≠ "1.5".toList := by
    intro i hi
    exact decInt_no_dot i (by rw [hi]; decide)
  unfold column
  rw [t]
  intro r hr x hx
  have hr : r = [some (decInt (g1.nrIts 0))] ∨ r = [some (decInt (g2.nrIts 0)), some (decInt (g3.nrIts 0))] := by
    rcases List.mem_cons.1 hr with h | h
    · exact Or.inl h
    · exact Or.inr (List.mem_singleton.1 h)
  have hx : ∃ i, x = some (decInt i) := by
    rcases hr with rfl | rfl
    · exact ⟨_, List.mem_singleton.1 hx⟩
    · rcases List.mem_cons.1 hx with h | h
      · exact ⟨_, h⟩
      · exact ⟨_, List.mem_singleton.1 h⟩
  obtain ⟨i, rfl⟩ := hx
  exact fun h => hd i (Option.some.inj h)

/-- C86, refuted for the ids: Gauss point 8, registered after the first write, has a group of columns in
the second row and is missing in the header. -/
theorem C86_ids_fails : ∃ s,
    (constructF exEnv exArgs3 exJunk ⟨[], [], [], [], fun _ _ => none⟩ >>=
      run exEnv [.setStrain 7 (fun _ => 1), .writeInfo, .setStrain 8 (fun _ => 1), .writeInfo]) = .ok s ∧
    ∀ (fmt : ℝ → List Char) (w : Nat → Nat), FmtCols fmt →
      headerIds (textPad fmt w s.files.convergence) = [decInt 7] ∧
      headerIds (textPad fmt w s.files.epsSigCtan) = [decInt 7] ∧
      (tableOf (textPad fmt w s.files.convergence)).map List.length = [1, 2] := by
  obtain ⟨s0, s, g1, g2, g3, h0, h, hi, i1, -⟩ := ex_info fun _ => 1
  refine ⟨s, h, fun fmt w hf => ?_⟩
  obtain ⟨s0', h0', H, -⟩ := C86_header_partial _ s h hf w
  obtain ⟨s0'', h0'', t, -⟩ := C85_tables exArgs3_ok _ s h hf w
  rw [h0] at h0' h0''
  cases h0'
  cases h0''
  obtain ⟨H1, H2, -⟩ := H _ _ hi
  rw [List.map_singleton, i1] at H1 H2
  rw [hi] at t
  exact ⟨H1, H2, by rw [t]; rfl⟩

end Verif.Props
