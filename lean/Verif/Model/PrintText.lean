import Verif.Model.PrintTable

/-!
# Executing the text of `ell_print`

The statements are those of the third layer (`Model/FileText.lean`), with `cout` as the open stream.
Widths and precisions are not modelled, as in `Model/Client.lean`.
-/

namespace Verif.Text

variable {α : Type} [Scalar α]

/-- What `m` points to, for `ell_print`: NULL, or `nrow`, `nnz` and the two pointers.
/repo/src/ell.cpp:302, /repo/include/ell.hpp:24-30. -/
abbrev PMat (α : Type) := Option (Nat × Nat × Option (Buf Int) × Option (Buf α))

/-- Is a pointer NULL?  `m->vals` and `m->cols` with `m` NULL is a fault.  /repo/src/ell.cpp:304-307. -/
def PNull.eval (m : PMat α) : PNull → M Bool
  | .mat => .ok m.isNone
  | .cols =>
    match m with
    | some (_, _, p, _) => .ok p.isNone
    | none => .error .null
  | .vals =>
    match m with
    | some (_, _, _, p) => .ok p.isNone
    | none => .error .null

/-- `p == NULL || q == NULL ..`, from left to right: /repo/src/ell.cpp:306. -/
def anyNull (m : PMat α) : List PNull → M Bool
  | [] => .ok false
  | p :: l => do
    let b ← p.eval m
    if b = true then pure true else anyNull m l

/-- The tests one after the other; the value returned by the first that holds.
/repo/src/ell.cpp:304-307. -/
def firstNull (m : PMat α) : List (List PNull × Int) → M (Option Int)
  | [] => .ok none
  | (p, k) :: l => do
    let b ← anyNull m p
    if b = true then pure (some k) else firstNull m l

/-- The locals behind `m`: /repo/src/ell.cpp:310-322. -/
def printLoc (m : PMat α) : Loc α :=
  match m with
  | none => Loc.none
  | some (nrow, nnz, p, q) =>
    { Loc.none with
      i := upd (upd (Loc.none : Loc α).i .m_nrow (some (nrow : Int))) .m_nnz (some (nnz : Int))
      iv := upd (Loc.none : Loc α).iv .m_cols (p.map Vec.ofBuf)
      v := upd (Loc.none : Loc α).v .m_vals (q.map Vec.ofBuf) }

/-- A call of `ell_print`: the value returned and what was written.  /repo/src/ell.cpp:302-327.
The function uses no member (`c`, `w`) and no file (`F`, `f`). -/
def printRun (c : Cfg α) (w : Work α) (F : Files α) (f : FId) (m : PMat α) : M (Int × List (Tok α)) := do
  let r ← firstNull m printTests
  match r with
  | some k => pure (k, [])
  | none => do
    let t ← t_ell_print.exec c [] (fun _ _ => .error .abort) (fun _ _ => .error .abort)
      ⟨⟨w, printLoc m⟩, F, some (f, [])⟩
    pure (printRet, ((t.cur.map Prod.snd).getD []))

end Verif.Text
