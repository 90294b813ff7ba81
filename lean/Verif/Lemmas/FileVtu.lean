import Verif.Lemmas.FileRun
import Verif.Lemmas.CtorRun

/-!
# The text of `write_vtu` writes what the model says
-/

namespace Verif.Text

variable {α : Type} [Scalar α]
variable {env : Env α} {c : Cfg α} {gs : List (Gp α)} {call : FFn → FSt α → M (FSt α)} {s : St α} {w : Work α}

/-- What a statement writes, with the functions of the layers below. -/
abbrev Emits' (env : Env α) (c : Cfg α) (gs : List (Gp α)) (call : FFn → FSt α → M (FSt α)) :=
  Emits c gs (fun p => p.exec env c (oRun env c 3)) call

theorem ev_dim (k : Nat) : (BExp.eqI (.mem .dim) (.lit (k : Int))).eval c s = .ok (decide (c.dim = k)) :=
  ok_to (ev_eqI (ev_imem _) (ev_ilit _)) (by simp [GI.get])

theorem ev_pred {g : GI} {N : Nat} (h : g.get c = (N : Int)) (h1 : 1 ≤ N) :
    (IExp.sub (.mem g) (.lit 1)).eval c s.l = .ok ((N - 1 : Nat) : Int) :=
  ok_to (ev_isub (ev_imem _) (ev_ilit _)) (by omega)

theorem emits_skip {Q : St α → Prop} (h : Q s) : Emits' env c gs call (.obj (.base .skip)) s [] Q :=
  Emits.obj ⟨s, rfl, h⟩

/-- A stretch of plain statements. -/
theorem Emits.base {p : Stmt} {Q : St α → Prop} (h : Gives (p.exec c (run c 6) s) Q) :
    Emits' env c gs call (.obj (.base p)) s [] Q := Emits.obj (Gives.obase h)

/-- The points: /repo/src/output.cpp:66-86. -/
theorem emits_points (hw : s.w = w) : Emits' env c gs call
    (.ite (.eqI (.mem .dim) (.lit 2)) (
      .for .j (.lit 0) (.mem .ny) (
        .for .i (.lit 0) (.mem .nx) (
          .obj (
            .base (
              .setD .x (.mul (.ofInt (.var .i)) (.mem .dx)) ;;
              .setD .y (.mul (.ofInt (.var .j)) (.mem .dy)))) ;;;;
          .put [.num (.var .x), .str " ", .num (.var .y), .str " ", .str "0.0", .endl]))) (
      .ite (.eqI (.mem .dim) (.lit 3)) (
        .for .k (.lit 0) (.mem .nz) (
          .for .j (.lit 0) (.mem .ny) (
            .for .i (.lit 0) (.mem .nx) (
              .obj (
                .base (
                  .setD .x (.mul (.ofInt (.var .i)) (.mem .dx)) ;;
                  .setD .y (.mul (.ofInt (.var .j)) (.mem .dy)) ;;
                  .setD .z (.mul (.ofInt (.var .k)) (.mem .dz)))) ;;;;
              .put [.num (.var .x), .str " ", .num (.var .y), .str " ", .num (.var .z), .endl])))) (
        .obj (.base .skip)))) s (vtuPoints c) (fun t => t.w = w) := by
  refine Emits.cond (v := c.dim = 2) (ev_dim 2) (fun _ => ?_) fun _ => ?_
  · refine Emits.loop (N := c.ny) (fun _ _ h => h) rfl hw fun j t _ hj ht => ?_
    refine Emits.mono (Emits.loop (N := c.nx) (P := fun t => t.w = w ∧ t.l.i .j = some (j : Int))
      (fun _ _ h => h) rfl ⟨ht, hj⟩ fun i t _ hi ht => ?_) fun _ h => h.1
    obtain ⟨ht, hj⟩ := ht
    refine Emits.seq (ts := []) (Q := fun t => (t.w = w ∧ t.l.i .j = some (j : Int)) ∧
      t.l.d .x = some (((i : Nat) : α) * c.dx) ∧ t.l.d .y = some (((j : Nat) : α) * c.dy)) (Emits.base ?_) ?_
    · refine Gives.seq (Gives.setD (by ev)) fun t h hx => ?_
      keep h
      refine (Gives.setD (by ev)).same.mono fun u h => ?_
      obtain ⟨h, hy⟩ := h
      keep h
      exact ⟨⟨ht, hj⟩, hx, hy⟩
    · rintro t ⟨h1, h2, h3⟩
      exact Emits.put (by toks) h1
  · refine Emits.cond (v := c.dim = 3) (ev_dim 3) (fun _ => ?_) fun _ => emits_skip hw
    refine Emits.loop (N := c.nz) (fun _ _ h => h) rfl hw fun k t _ hk ht => ?_
    refine Emits.mono (Emits.loop (N := c.ny) (P := fun t => t.w = w ∧ t.l.i .k = some (k : Int))
      (fun _ _ h => h) rfl ⟨ht, hk⟩ fun j t _ hj ht => ?_) fun _ h => h.1
    refine Emits.mono (Emits.loop (N := c.nx)
      (P := fun t => (t.w = w ∧ t.l.i .k = some (k : Int)) ∧ t.l.i .j = some (j : Int))
      (fun _ _ h => h) rfl ⟨ht, hj⟩ fun i t _ hi ht => ?_) fun _ h => h.1
    obtain ⟨⟨ht, hk⟩, hj⟩ := ht
    refine Emits.seq (ts := []) (Q := fun t => ((t.w = w ∧ t.l.i .k = some (k : Int)) ∧ t.l.i .j = some (j : Int)) ∧
      t.l.d .x = some (((i : Nat) : α) * c.dx) ∧ t.l.d .y = some (((j : Nat) : α) * c.dy)
      ∧ t.l.d .z = some (((k : Nat) : α) * c.dz)) (Emits.base ?_) ?_
    · refine Gives.seq (Gives.setD (by ev)) fun t h hx => ?_
      keep h
      refine Gives.seq (Gives.setD (by ev)) fun t h hy => ?_
      keep h
      refine (Gives.setD (by ev)).same.mono fun u h => ?_
      obtain ⟨h, hz⟩ := h
      keep h
      exact ⟨⟨⟨ht, hk⟩, hj⟩, hx, hy, hz⟩
    · rintro t ⟨h1, h2, h3, h4⟩
      exact Emits.put (by toks) h1

/-- The connectivity: /repo/src/output.cpp:90-116. -/
theorem emits_cells (hc : c.Ok) (hw : s.w = w) : Emits' env c gs call
    (.ite (.eqI (.mem .dim) (.lit 2)) (
      .for .ey (.lit 0) (.sub (.mem .ny) (.lit 1)) (
        .for .ex (.lit 0) (.sub (.mem .nx) (.lit 1)) (
          .obj (
            .base (
              .setI .n0 (.add (.mul (.var .ey) (.mem .nx)) (.var .ex)) ;;
              .setI .n1 (.add (.add (.mul (.var .ey) (.mem .nx)) (.var .ex)) (.lit 1)) ;;
              .setI .n2 (.add (.add (.mul (.add (.var .ey) (.lit 1)) (.mem .nx)) (.var .ex)) (.lit 1)) ;;
              .setI .n3 (.add (.mul (.add (.var .ey) (.lit 1)) (.mem .nx)) (.var .ex)))) ;;;;
          .put [.int (.var .n0), .str " ", .int (.var .n1), .str " ", .int (.var .n2), .str " ", .int (.var .n3), .str " ", .endl]))) (
      .ite (.eqI (.mem .dim) (.lit 3)) (
        .for .ez (.lit 0) (.sub (.mem .nz) (.lit 1)) (
          .for .ey (.lit 0) (.sub (.mem .ny) (.lit 1)) (
            .for .ex (.lit 0) (.sub (.mem .nx) (.lit 1)) (
              .obj (
                .base (
                  .setI .n0 (.add (.add (.mul (.var .ez) (.mul (.mem .nx) (.mem .ny))) (.mul (.var .ey) (.mem .nx))) (.var .ex)) ;;
                  .setI .n1 (.add (.add (.add (.mul (.var .ez) (.mul (.mem .nx) (.mem .ny))) (.mul (.var .ey) (.mem .nx))) (.var .ex)) (.lit 1)) ;;
                  .setI .n2 (.add (.add (.add (.mul (.var .ez) (.mul (.mem .nx) (.mem .ny))) (.mul (.add (.var .ey) (.lit 1)) (.mem .nx))) (.var .ex)) (.lit 1)) ;;
                  .setI .n3 (.add (.add (.mul (.var .ez) (.mul (.mem .nx) (.mem .ny))) (.mul (.add (.var .ey) (.lit 1)) (.mem .nx))) (.var .ex)) ;;
                  .setI .n4 (.add (.var .n0) (.mul (.mem .nx) (.mem .ny))) ;;
                  .setI .n5 (.add (.var .n1) (.mul (.mem .nx) (.mem .ny))) ;;
                  .setI .n6 (.add (.var .n2) (.mul (.mem .nx) (.mem .ny))) ;;
                  .setI .n7 (.add (.var .n3) (.mul (.mem .nx) (.mem .ny))))) ;;;;
              .put [.int (.var .n0), .str " ", .int (.var .n1), .str " ", .int (.var .n2), .str " ", .int (.var .n3), .str " ", .int (.var .n4), .str " ", .int (.var .n5), .str " ", .int (.var .n6), .str " ", .int (.var .n7), .str " ", .endl])))) (
        .obj (.base .skip)))) s (vtuCells c) (fun t => t.w = w) := by
  have hx : ∀ s : St α, (IExp.sub (.mem .nx) (.lit 1)).eval c s.l = .ok ((c.nx - 1 : Nat) : Int) :=
    fun s => ev_pred rfl (by have := hc.nx; omega)
  have hy : ∀ s : St α, (IExp.sub (.mem .ny) (.lit 1)).eval c s.l = .ok ((c.ny - 1 : Nat) : Int) :=
    fun s => ev_pred rfl (by have := hc.ny; omega)
  refine Emits.cond (v := c.dim = 2) (ev_dim 2) (fun _ => ?_) fun _ => ?_
  · refine Emits.loop (N := c.ny - 1) (fun _ _ h => h) (hy _) hw fun ey t _ hey ht => ?_
    refine Emits.mono (Emits.loop (N := c.nx - 1) (P := fun t => t.w = w ∧ t.l.i .ey = some (ey : Int))
      (fun _ _ h => h) (hx _) ⟨ht, hey⟩ fun ex t _ hex ht => ?_) fun _ h => h.1
    obtain ⟨ht, hey⟩ := ht
    refine Emits.cast (Emits.seq (ts := []) (Q := fun t => (t.w = w ∧ t.l.i .ey = some (ey : Int)) ∧
      t.l.i .n0 = some ((vtuNode2D c.nx ex ey 0 : Nat) : Int) ∧ t.l.i .n1 = some ((vtuNode2D c.nx ex ey 1 : Nat) : Int)
      ∧ t.l.i .n2 = some ((vtuNode2D c.nx ex ey 2 : Nat) : Int) ∧ t.l.i .n3 = some ((vtuNode2D c.nx ex ey 3 : Nat) : Int))
      (Emits.base ?_) ?_) (us := emitP 4 (fun k => [.int (vtuNode2D c.nx ex ey k : Nat), .sp]) ++ [.endl]) rfl
    · refine Gives.seq (Gives.setI (k := ((vtuNode2D c.nx ex ey 0 : Nat) : Int)) (by evs; simp [GI.get, vtuNode2D]))
        fun t h n0 => ?_
      keep h
      refine Gives.seq (Gives.setI (k := ((vtuNode2D c.nx ex ey 1 : Nat) : Int)) (by evs; simp [GI.get, vtuNode2D]))
        fun t h n1 => ?_
      keep h
      refine Gives.seq (Gives.setI (k := ((vtuNode2D c.nx ex ey 2 : Nat) : Int)) (by evs; simp [GI.get, vtuNode2D]))
        fun t h n2 => ?_
      keep h
      refine (Gives.setI (k := ((vtuNode2D c.nx ex ey 3 : Nat) : Int)) (by evs; simp [GI.get, vtuNode2D])).same.mono
        fun u h => ?_
      obtain ⟨h, n3⟩ := h
      keep h
      exact ⟨⟨ht, hey⟩, n0, n1, n2, n3⟩
    · rintro t ⟨h1, h2, h3, h4, h5⟩
      exact Emits.put (by toks) h1
  · refine Emits.cond (v := c.dim = 3) (ev_dim 3) (fun h3 => ?_) fun _ => emits_skip hw
    have hz : ∀ s : St α, (IExp.sub (.mem .nz) (.lit 1)).eval c s.l = .ok ((c.nz - 1 : Nat) : Int) :=
      fun s => ev_pred rfl (by have := hc.nz3 h3; omega)
    refine Emits.loop (N := c.nz - 1) (fun _ _ h => h) (hz _) hw fun ez t _ hez ht => ?_
    refine Emits.mono (Emits.loop (N := c.ny - 1) (P := fun t => t.w = w ∧ t.l.i .ez = some (ez : Int))
      (fun _ _ h => h) (hy _) ⟨ht, hez⟩ fun ey t _ hey ht => ?_) fun _ h => h.1
    refine Emits.mono (Emits.loop (N := c.nx - 1)
      (P := fun t => (t.w = w ∧ t.l.i .ez = some (ez : Int)) ∧ t.l.i .ey = some (ey : Int))
      (fun _ _ h => h) (hx _) ⟨ht, hey⟩ fun ex t _ hex ht => ?_) fun _ h => h.1
    obtain ⟨⟨ht, hez⟩, hey⟩ := ht
    refine Emits.cast (Emits.seq (ts := []) (Q := fun t =>
      ((t.w = w ∧ t.l.i .ez = some (ez : Int)) ∧ t.l.i .ey = some (ey : Int)) ∧
      t.l.i .n0 = some ((vtuNode3D c.nx c.ny ex ey ez 0 : Nat) : Int) ∧ t.l.i .n1 = some ((vtuNode3D c.nx c.ny ex ey ez 1 : Nat) : Int)
      ∧ t.l.i .n2 = some ((vtuNode3D c.nx c.ny ex ey ez 2 : Nat) : Int) ∧ t.l.i .n3 = some ((vtuNode3D c.nx c.ny ex ey ez 3 : Nat) : Int)
      ∧ t.l.i .n4 = some ((vtuNode3D c.nx c.ny ex ey ez 4 : Nat) : Int) ∧ t.l.i .n5 = some ((vtuNode3D c.nx c.ny ex ey ez 5 : Nat) : Int)
      ∧ t.l.i .n6 = some ((vtuNode3D c.nx c.ny ex ey ez 6 : Nat) : Int) ∧ t.l.i .n7 = some ((vtuNode3D c.nx c.ny ex ey ez 7 : Nat) : Int))
      (Emits.base ?_) ?_) (us := emitP 8 (fun k => [.int (vtuNode3D c.nx c.ny ex ey ez k : Nat), .sp]) ++ [.endl]) rfl
    · refine Gives.seq (Gives.setI (k := ((vtuNode3D c.nx c.ny ex ey ez 0 : Nat) : Int)) (by evs; simp [GI.get, vtuNode3D]))
        fun t h n0 => ?_
      keep h
      refine Gives.seq (Gives.setI (k := ((vtuNode3D c.nx c.ny ex ey ez 1 : Nat) : Int)) (by evs; simp [GI.get, vtuNode3D]))
        fun t h n1 => ?_
      keep h
      refine Gives.seq (Gives.setI (k := ((vtuNode3D c.nx c.ny ex ey ez 2 : Nat) : Int)) (by evs; simp [GI.get, vtuNode3D]))
        fun t h n2 => ?_
      keep h
      refine Gives.seq (Gives.setI (k := ((vtuNode3D c.nx c.ny ex ey ez 3 : Nat) : Int)) (by evs; simp [GI.get, vtuNode3D]))
        fun t h n3 => ?_
      keep h
      refine Gives.seq (Gives.setI (k := ((vtuNode3D c.nx c.ny ex ey ez 4 : Nat) : Int)) (by evs; simp [GI.get, vtuNode3D]))
        fun t h n4 => ?_
      keep h
      refine Gives.seq (Gives.setI (k := ((vtuNode3D c.nx c.ny ex ey ez 5 : Nat) : Int)) (by evs; simp [GI.get, vtuNode3D]))
        fun t h n5 => ?_
      keep h
      refine Gives.seq (Gives.setI (k := ((vtuNode3D c.nx c.ny ex ey ez 6 : Nat) : Int)) (by evs; simp [GI.get, vtuNode3D]))
        fun t h n6 => ?_
      keep h
      refine (Gives.setI (k := ((vtuNode3D c.nx c.ny ex ey ez 7 : Nat) : Int)) (by evs; simp [GI.get, vtuNode3D])).same.mono
        fun u h => ?_
      obtain ⟨h, n7⟩ := h
      keep h
      exact ⟨⟨⟨ht, hez⟩, hey⟩, n0, n1, n2, n3, n4, n5, n6, n7⟩
    · rintro t ⟨h1, h2, h3, h4, h5, h6, h7, h8, h9⟩
      exact Emits.put (by toks) h1

/-- The offsets: /repo/src/output.cpp:122-123. -/
theorem emits_offsets (hw : s.w = w) (hce : s.l.i .ce = some (c.npe : Int)) : Emits' env c gs call
    (.for .e (.lit 0) (.mem .nelem) (
      .put [.int (.var .ce), .str " "] ;;;;
      .obj (
        .base (
          .setI .ce (.add (.var .ce) (.mem .npe)))))) s (vtuOffsets c) (fun t => t.w = w) := by
  rw [vtuOffsets_eq]
  refine Emits.mono (Emits.for (N := c.nelem) (fun k t => t.w = w ∧ t.l.i .ce = some (((k + 1) * c.npe : Nat) : Int))
    (fun _ _ _ h => h) rfl ⟨hw, by simpa using hce⟩ fun e t _ he ht => ?_) fun _ h => h.1
  obtain ⟨ht, hce⟩ := ht
  refine Emits.cast (Emits.seq (us := []) (Emits.put (Q := (· = t)) (toks_int (ev_ivar hce) (toks_str toks_nil)) rfl) ?_) rfl
  rintro _ rfl
  refine Emits.base ((Gives.setI (k := (((e + 1 + 1) * c.npe : Nat) : Int)) (by
    evs; simp [GI.get]; ring)).same.mono fun u h => ?_)
  obtain ⟨h, h1⟩ := h
  keep h
  exact ⟨ht, h1⟩

/-- The cell types: /repo/src/output.cpp:128-133. -/
theorem emits_types (hw : s.w = w) : Emits' env c gs call
    (.for .e (.lit 0) (.mem .nelem) (
      .ite (.eqI (.mem .dim) (.lit 2)) (
        .put [.int (.lit 9), .str " "]) (
        .ite (.eqI (.mem .dim) (.lit 3)) (
          .put [.int (.lit 12), .str " "]) (
          .obj (.base .skip))))) s (vtuTypes c) (fun t => t.w = w) := by
  refine Emits.loop (N := c.nelem) (fun _ _ h => h) rfl hw fun e t _ _ ht => ?_
  refine Emits.cond (v := c.dim = 2) (ev_dim 2) (fun _ => Emits.put (by toks) ht) fun _ => ?_
  exact Emits.cond (v := c.dim = 3) (ev_dim 3) (fun _ => Emits.put (by toks) ht) fun _ => emits_skip ht

/-- A vector per node: /repo/src/output.cpp:140-145, 149-154. -/
theorem emits_nodal (g : GA) (hg : (g.get w).size = c.nn * c.dim) (hw : s.w = w) : Emits' env c gs call
    (.for .n (.lit 0) (.mem .nn) (
      .ite (.eqI (.mem .dim) (.lit 2)) (
        .put [.num (.memRd g (.add (.mul (.var .n) (.mem .dim)) (.lit 0))), .str " ", .num (.memRd g (.add (.mul (.var .n) (.mem .dim)) (.lit 1))), .str " ", .str "0.0", .endl]) (
        .ite (.eqI (.mem .dim) (.lit 3)) (
          .put [.num (.memRd g (.add (.mul (.var .n) (.mem .dim)) (.lit 0))), .str " ", .num (.memRd g (.add (.mul (.var .n) (.mem .dim)) (.lit 1))), .str " ", .num (.memRd g (.add (.mul (.var .n) (.mem .dim)) (.lit 2))), .endl]) (
          .obj (.base .skip))))) s (nodalP c (g.get w).val) (fun t => t.w = w) := by
  refine Emits.loop (N := c.nn) (fun _ _ h => h) rfl hw fun n t hn hnt ht => ?_
  have hr : ∀ r : Nat, r < c.dim → (DExp.memRd g (.add (.mul (.var .n) (.mem .dim)) (.lit (r : Int)))).eval c t
      = .ok ((g.get w).val (n * c.dim + r)) := fun r h => by
    subst ht
    refine ev_memRead (k := n * c.dim + r) (by evs; simp [GI.get]) rfl ?_
    exact Buf.read_ok (by rw [hg]; exact mul_add_lt hn h)
  refine Emits.cond (v := c.dim = 2) (ev_dim 2) (fun h => ?_) fun _ => ?_
  · have h0 := hr 0 (by omega); have h1 := hr 1 (by omega)
    exact Emits.put (toks_num h0 (toks_str (toks_num h1 (by toks)))) ht
  refine Emits.cond (v := c.dim = 3) (ev_dim 3) (fun h => ?_) fun _ => emits_skip ht
  have h0 := hr 0 (by omega); have h1 := hr 1 (by omega); have h2 := hr 2 (by omega)
  exact Emits.put (toks_num h0 (toks_str (toks_num h1 (toks_str (toks_num h2 (by toks)))))) ht

/-- `nvoi` values per element: /repo/src/output.cpp:162-166, 170-174. -/
theorem emits_elem (g : GA) (hg : (g.get w).size = c.nelem * c.nvoi) (hw : s.w = w) : Emits' env c gs call
    (.for .e (.lit 0) (.mem .nelem) (
      .for .v (.lit 0) (.mem .nvoi) (
        .put [.num (.memRd g (.add (.mul (.var .e) (.mem .nvoi)) (.var .v))), .str " "]) ;;;;
      .put [.endl])) s (elemP c (g.get w).val) (fun t => t.w = w) := by
  refine Emits.loop (N := c.nelem) (fun _ _ h => h) rfl hw fun e t he het ht => ?_
  refine Emits.seq (Emits.loop (N := c.nvoi) (P := fun t => t.w = w ∧ t.l.i .e = some (e : Int))
    (fun _ _ h => h) rfl ⟨ht, het⟩ fun v t hv hvt ht => ?_) fun t ht => Emits.put (by toks) ht.1
  obtain ⟨ht, het⟩ := ht
  refine Emits.put (toks_num ?_ (by toks)) ⟨ht, het⟩
  subst ht
  refine ev_memRead (k := e * c.nvoi + v) (by evs; simp [GI.get]) rfl ?_
  exact Buf.read_ok (by rw [hg]; exact mul_add_lt he hv)

/-- The element types: /repo/src/output.cpp:178-180. -/
theorem emits_elemType (hc : c.Ok) (hw : s.w = w) : Emits' env c gs call
    (.for .e (.lit 0) (.mem .nelem) (
      .put [.int (.elemType (.var .e)), .str " "])) s (elemTypeP c) (fun t => t.w = w) := by
  refine Emits.loop (N := c.nelem) (fun _ _ h => h) rfl hw fun e t he het ht => ?_
  exact Emits.put (toks_int (ev_elemType (ev_ivar het) rfl (Buf.read_ok (by rw [hc.elem]; exact he))) (by toks)) ht

theorem ev_intvar {t : St α} {e gp : Nat} (hw : w.varsOld.size = c.numIntVars) (ht : t.w = w)
    (he : e < c.nelem) (hg : gp < 8) (het : t.l.i .e = some (e : Int)) (hgt : t.l.i .gp = some (gp : Int))
    (r : Nat) (h : r < 7) :
    (DExp.memRd .vars_old (.add (.add (.mul (.mul (.var .e) (.lit 8)) (.lit 7)) (.mul (.var .gp) (.lit 7))) (.lit (r : Int)))).eval c t
      = .ok (w.varsOld.val (intvarIx e gp r)) := by
  subst ht
  refine ev_memRead (k := intvarIx e gp r) (by evs; simp [intvarIx]) rfl ?_
  exact Buf.read_ok (by show _ < t.w.varsOld.size; rw [hw]; exact intvarIx_lt he hg h)

/-- The plasticity: /repo/src/output.cpp:184-201. -/
theorem emits_plasticity (L : LitLaws α) (hv : w.varsOld.size = c.numIntVars) (hw : s.w = w) : Emits' env c gs call
    (.for .e (.lit 0) (.mem .nelem) (
      .obj (
        .base (
          .setD .plasticity (.lit (nat_lit 0) true (nat_lit 1)) ;;
          .ite (.eqI (.mem .dim) (.lit 3)) (
            .for .gp (.lit 0) (.lit 8) (
              .setD .plasticity (.add (.var .plasticity) (.sqrt (.add (.add (.add (.add (.add (.mul (.memRd .vars_old (.add (.add (.mul (.mul (.var .e) (.lit 8)) (.lit 7)) (.mul (.var .gp) (.lit 7))) (.lit 0))) (.memRd .vars_old (.add (.add (.mul (.mul (.var .e) (.lit 8)) (.lit 7)) (.mul (.var .gp) (.lit 7))) (.lit 0)))) (.mul (.memRd .vars_old (.add (.add (.mul (.mul (.var .e) (.lit 8)) (.lit 7)) (.mul (.var .gp) (.lit 7))) (.lit 1))) (.memRd .vars_old (.add (.add (.mul (.mul (.var .e) (.lit 8)) (.lit 7)) (.mul (.var .gp) (.lit 7))) (.lit 1))))) (.mul (.memRd .vars_old (.add (.add (.mul (.mul (.var .e) (.lit 8)) (.lit 7)) (.mul (.var .gp) (.lit 7))) (.lit 2))) (.memRd .vars_old (.add (.add (.mul (.mul (.var .e) (.lit 8)) (.lit 7)) (.mul (.var .gp) (.lit 7))) (.lit 2))))) (.mul (.mul (.ofInt (.lit 2)) (.memRd .vars_old (.add (.add (.mul (.mul (.var .e) (.lit 8)) (.lit 7)) (.mul (.var .gp) (.lit 7))) (.lit 3)))) (.memRd .vars_old (.add (.add (.mul (.mul (.var .e) (.lit 8)) (.lit 7)) (.mul (.var .gp) (.lit 7))) (.lit 3))))) (.mul (.mul (.ofInt (.lit 2)) (.memRd .vars_old (.add (.add (.mul (.mul (.var .e) (.lit 8)) (.lit 7)) (.mul (.var .gp) (.lit 7))) (.lit 4)))) (.memRd .vars_old (.add (.add (.mul (.mul (.var .e) (.lit 8)) (.lit 7)) (.mul (.var .gp) (.lit 7))) (.lit 4))))) (.mul (.mul (.ofInt (.lit 2)) (.memRd .vars_old (.add (.add (.mul (.mul (.var .e) (.lit 8)) (.lit 7)) (.mul (.var .gp) (.lit 7))) (.lit 5)))) (.memRd .vars_old (.add (.add (.mul (.mul (.var .e) (.lit 8)) (.lit 7)) (.mul (.var .gp) (.lit 7))) (.lit 5))))))))) (
            .skip))) ;;;;
      .put [.num (.div (.var .plasticity) (.ofInt (.lit 8))), .str " "])) s (plasticityP c w.varsOld) (fun t => t.w = w) := by
  refine Emits.loop (N := c.nelem) (fun _ _ h => h) rfl hw fun e t he het ht => ?_
  refine Emits.seq (ts := []) (Q := fun t => t.w = w ∧ t.l.d .plasticity
    = some (accum (if c.dim = 3 then 8 else 0) (fun gp (p : α) => p + sigNorm (epsPAt w.varsOld e gp)) 0))
    (Emits.base ?_) ?_
  · refine Gives.seq (Gives.setD (y := (0 : α)) (by rw [ev_lit]; rw [L.zeroD])) fun t h hp => ?_
    keep h
    refine Gives.cond (v := c.dim = 3) (ev_dim 3) (fun h3 => ?_) fun h3 => ?_
    · rw [if_pos h3]
      refine (Gives.for0 (x := .gp) (N := 8) (fun k t => t.w = w ∧ t.l.i .e = some (e : Int) ∧ t.l.d .plasticity
        = some (accum k (fun gp (p : α) => p + sigNorm (epsPAt w.varsOld e gp)) 0)) (fun _ _ _ h => h) rfl
        ⟨ht, het, hp⟩ fun gp t hg _ hgt h => ?_).mono fun u h => ⟨h.1, h.2.2⟩
      obtain ⟨ht, het, hp⟩ := h
      have hr := ev_intvar hv ht he hg het hgt
      have h0 := hr 0 (by omega); have h1 := hr 1 (by omega); have h2 := hr 2 (by omega)
      have h3 := hr 3 (by omega); have h4 := hr 4 (by omega); have h5 := hr 5 (by omega)
      refine (Gives.setD (y := accum (gp + 1) (fun gp (p : α) => p + sigNorm (epsPAt w.varsOld e gp)) 0) (by
        refine ok_to (ev_add (ev_var hp) (ev_sqrt (ev_add (ev_add (ev_add (ev_add (ev_add (ev_mul h0 h0)
          (ev_mul h1 h1)) (ev_mul h2 h2)) (ev_mul (ev_mul (ev_ofInt (ev_ilit _)) h3) h3)) (ev_mul (ev_mul (ev_ofInt (ev_ilit _)) h4) h4))
          (ev_mul (ev_mul (ev_ofInt (ev_ilit _)) h5) h5)))) rfl)).same.mono fun u h => ?_
      obtain ⟨h, h1⟩ := h
      keep h
      exact ⟨ht, het, h1⟩
    · rw [if_neg h3]
      exact Gives.skip.mono fun u h => by subst h; exact ⟨ht, hp⟩
  · rintro t ⟨ht, hp⟩
    exact Emits.put (toks_num (ev_div (ev_var hp) (ev_ofInt (ev_ilit _))) (by toks)) ht

/-- The hardening: /repo/src/output.cpp:205-214. -/
theorem emits_hardening (L : LitLaws α) (hv : w.varsOld.size = c.numIntVars) (hw : s.w = w) : Emits' env c gs call
    (.for .e (.lit 0) (.mem .nelem) (
      .obj (
        .base (
          .setD .hardening (.lit (nat_lit 0) true (nat_lit 1)) ;;
          .ite (.eqI (.mem .dim) (.lit 3)) (
            .for .gp (.lit 0) (.lit 8) (
              .setD .hardening (.add (.var .hardening) (.memRd .vars_old (.add (.add (.mul (.mul (.var .e) (.lit 8)) (.lit 7)) (.mul (.var .gp) (.lit 7))) (.lit 6)))))) (
            .skip))) ;;;;
      .put [.num (.div (.var .hardening) (.ofInt (.lit 8))), .str " "])) s (hardeningP c w.varsOld) (fun t => t.w = w) := by
  refine Emits.loop (N := c.nelem) (fun _ _ h => h) rfl hw fun e t he het ht => ?_
  refine Emits.seq (ts := []) (Q := fun t => t.w = w ∧ t.l.d .hardening
    = some (accum (if c.dim = 3 then 8 else 0) (fun gp (p : α) => p + alphaAt w.varsOld e gp) 0))
    (Emits.base ?_) ?_
  · refine Gives.seq (Gives.setD (y := (0 : α)) (by rw [ev_lit]; rw [L.zeroD])) fun t h hp => ?_
    keep h
    refine Gives.cond (v := c.dim = 3) (ev_dim 3) (fun h3 => ?_) fun h3 => ?_
    · rw [if_pos h3]
      refine (Gives.for0 (x := .gp) (N := 8) (fun k t => t.w = w ∧ t.l.i .e = some (e : Int) ∧ t.l.d .hardening
        = some (accum k (fun gp (p : α) => p + alphaAt w.varsOld e gp) 0)) (fun _ _ _ h => h) rfl
        ⟨ht, het, hp⟩ fun gp t hg _ hgt h => ?_).mono fun u h => ⟨h.1, h.2.2⟩
      obtain ⟨ht, het, hp⟩ := h
      have h6 := ev_intvar hv ht he hg het hgt 6 (by omega)
      refine (Gives.setD (y := accum (gp + 1) (fun gp (p : α) => p + alphaAt w.varsOld e gp) 0)
        (ok_to (ev_add (ev_var hp) h6) rfl)).same.mono fun u h => ?_
      obtain ⟨h, h1⟩ := h
      keep h
      exact ⟨ht, het, h1⟩
    · rw [if_neg h3]
      exact Gives.skip.mono fun u h => by subst h; exact ⟨ht, hp⟩
  · rintro t ⟨ht, hp⟩
    exact Emits.put (toks_num (ev_div (ev_var hp) (ev_ofInt (ev_ilit _))) (by toks)) ht

/-- `write_vtu`: /repo/src/output.cpp:52-222. -/
theorem exec_write_vtu (L : LitLaws α) (hc : c.Ok) (hok : w.Ok c) {ts : List (Tok α)} (hm : writeVtu c w = .ok ts)
    {l : Loc α} {g k : Int} (hg : l.i .gp_id = some g) (hk : l.i .time_step = some k) (F : Files α) :
    Gives (f_write_vtu.exec c gs (fun p => p.exec env c (oRun env c 3)) call ⟨⟨w, l⟩, F, none⟩)
      (fun u => u.st.w = w ∧ u.files = (FId.vtu g k).set F ts ∧ u.cur = none) := by
  unfold f_write_vtu
  refine Gives.fopen (f := .vtu g k) (by simp only [FName.eval, ev_ivar hg, ev_ivar hk, M_bind_ok', M_pure]) ?_
  obtain ⟨s, hw⟩ : ∃ s : St α, s.w = w ∧ s = ⟨w, l⟩ := ⟨_, rfl, rfl⟩
  rw [← hw.2]
  replace hw := hw.1
  fput
  refine Gives.femits (Emits.base (Gives.seq Gives.declD fun t h _ => Gives.seq Gives.declD fun u h' _ =>
    Gives.declD.same.mono fun v h'' => keep_w ((h.trans h').trans h''.1) hw rfl)) fun s hw => ?_
  refine Gives.femits (emits_points hw) fun s hw => ?_
  fput
  fput
  refine Gives.femits (emits_cells hc hw) fun s hw => ?_
  fput
  refine Gives.femits (Q := fun s => s.w = w ∧ s.l.i .ce = some (c.npe : Int)) (Emits.base ((Gives.setI (ev_imem _)).same.mono fun v h => ⟨keep_w h.1 hw rfl, h.2⟩))
    fun s hs => ?_
  fput
  refine Gives.femits (emits_offsets hs.1 hs.2) fun s hw => ?_
  fput
  fput
  refine Gives.femits (emits_types hw) fun s hw => ?_
  fput
  fput
  fput
  fput
  refine Gives.femits (emits_nodal .u hok.u hw) fun s hw => ?_
  fput
  fput
  refine Gives.femits (emits_nodal .b hok.b hw) fun s hw => ?_
  fput
  fput
  fput
  fput
  refine Gives.femits (emits_elem .elem_strain hok.elemStrain hw) fun s hw => ?_
  fput
  fput
  refine Gives.femits (emits_elem .elem_stress hok.elemStress hw) fun s hw => ?_
  fput
  fput
  refine Gives.femits (emits_elemType hc hw) fun s hw => ?_
  fput
  fput
  refine Gives.femits (emits_plasticity L hok.varsOld hw) fun s hw => ?_
  fput
  fput
  refine Gives.femits (emits_hardening L hok.varsOld hw) fun s hw => ?_
  fput
  fput
  fput
  refine Gives.fend ⟨hw, ?_, rfl⟩
  unfold writeVtu at hm
  rw [vtuNodal_eq hc.dim hok.u, M_bind_ok', vtuNodal_eq hc.dim hok.b, M_bind_ok',
    vtuElem_eq hok.elemStrain, M_bind_ok', vtuElem_eq hok.elemStress, M_bind_ok',
    vtuElemType_eq hc.elem, M_bind_ok', vtuPlasticity_eq hok.varsOld, M_bind_ok',
    vtuHardening_eq hok.varsOld, M_bind_ok'] at hm
  refine congrArg (fun l => FId.set F l (.vtu g k)) (Eq.trans ?_ (M_pure_inj hm))
  simp only [List.append_assoc, List.cons_append, List.nil_append, List.append_nil, GI.get, GA.get, Bool.false_eq_true, if_false]

end Verif.Text
