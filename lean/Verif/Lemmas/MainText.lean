import Verif.Model.MainTable
import Verif.Lemmas.TextLaw
import Verif.Lemmas.Client

/-!
# Lemmas on the programs of /repo/test as text
-/

namespace Verif.MainText

/-! ## Two computations side by side -/

/-- Both computations return related results, or both end with the same fault. -/
def Sim {σ τ : Type} (R : σ → τ → Prop) : M σ → M τ → Prop
  | .ok s, .ok t => R s t
  | .error e, .error e' => e = e'
  | _, _ => False

section
variable {σ τ σ' τ' β : Type} {R : σ → τ → Prop} {R' : σ' → τ' → Prop}

theorem Sim.ok {s : σ} {t : τ} (h : R s t) : Sim R (.ok s) (.ok t) := h

theorem Sim.same {x : M β} {f : β → M σ} {g : β → M τ} (h : ∀ v, x = .ok v → Sim R (f v) (g v)) :
    Sim R (x >>= f) (x >>= g) := by
  cases x with
  | error e => exact rfl
  | ok v => exact h v rfl

theorem Sim.bind {x : M σ} {y : M τ} {f : σ → M σ'} {g : τ → M τ'} (h : Sim R x y)
    (hf : ∀ s t, R s t → Sim R' (f s) (g t)) : Sim R' (x >>= f) (y >>= g) := by
  cases x <;> cases y
  · exact h
  · exact h.elim
  · exact h.elim
  · exact hf _ _ h

theorem Sim.loop {f : Nat → σ → M σ} {g : Nat → τ → M τ}
    (h : ∀ k s t, R s t → Sim R (f k s) (g k t)) : ∀ (n : Nat) {s : σ} {t : τ}, R s t →
    Sim R (Verif.loop n f s) (Verif.loop n g t)
  | 0, _, _, h0 => h0
  | n + 1, _, _, h0 => (Sim.loop h n h0).bind fun _ _ hr => h n _ _ hr

theorem Sim.mono {Q : σ → τ → Prop} (h : ∀ s t, R s t → Q s t) {x : M σ} {y : M τ}
    (hs : Sim R x y) : Sim Q x y := by
  cases x <;> cases y
  · exact hs
  · exact hs.elim
  · exact hs.elim
  · exact h _ _ hs

theorem Sim.eq {g : σ → τ} {x : M σ} {y : M τ} (h : Sim (fun s t => g s = t) x y) :
    g <$> x = y := by
  cases x <;> cases y
  · exact congrArg _ h
  · exact h.elim
  · exact h.elim
  · exact congrArg _ h
end

variable {α : Type} [Scalar α]

/-! ## The constructor looks at its arrays inside their bounds only -/

theorem mkMaterial_congr {p q : Nat → α} {t u : Int} {m : Material α} (h : ∀ k, k < 4 → p k = q k)
    (ht : t = u) : mkMaterial p t m = mkMaterial q u m := by
  unfold mkMaterial
  rw [h 0 (by omega), h 1 (by omega), h 2 (by omega), h 3 (by omega), ht]

/-- Two sets of arrays that agree where the constructor looks. -/
structure Agree (dim : Nat) (a b : CtorArrays α) : Prop where
  size : a.size.size = b.size.size
  mp : a.microParams.size = b.microParams.size
  mt : a.matTypes.size = b.matTypes.size
  mat : a.params.size = b.params.size
  vsize : ∀ i, i < 3 → (dim = 2 → i < 2) → a.size.val i = b.size.val i
  vmp : ∀ i, i < 5 → a.microParams.val i = b.microParams.val i
  vmt : ∀ i, i < 2 → a.matTypes.val i = b.matTypes.val i
  vmat : ∀ i k, i < 2 → k < 4 → a.params.val (i * 10 + k) = b.params.val (i * 10 + k)

theorem mkCfg_congr {dim : Nat} {micro : Int} {a b : CtorArrays α} (h : Agree dim a b) (j : Junk α) :
    mkCfg (a.args dim micro) j = mkCfg (b.args dim micro) j := by
  funext et
  have h0 := h.vsize 0 (by omega) (by omega)
  have h1 := h.vsize 1 (by omega) (by omega)
  have h2 : dim ≠ 2 → a.size.val 2 = b.size.val 2 := fun hd => h.vsize 2 (by omega) (by omega)
  have p0 := h.vmp 0 (by omega)
  have p1 := h.vmp 1 (by omega)
  have p2 := h.vmp 2 (by omega)
  have p3 := h.vmp 3 (by omega)
  have hm : (fun i => if i < 2 then mkMaterial (fun k => a.params.val (i * 10 + k))
        (a.matTypes.val i) (j.mats i) else j.mats i)
      = fun i => if i < 2 then mkMaterial (fun k => b.params.val (i * 10 + k))
        (b.matTypes.val i) (j.mats i) else j.mats i := by
    funext i
    split
    · next hi => exact mkMaterial_congr (fun k hk => h.vmat i k hi hk) (h.vmt i hi)
    · rfl
  by_cases hd : dim = 2
  · simp only [mkCfg, CtorArrays.args, h0, h1, p0, p1, p3, hm, hd, if_true]
  · simp only [mkCfg, CtorArrays.args, h0, h1, h2 hd, p0, p1, p2, p3, hm, hd, if_false]

theorem read_size {β γ : Type} {a b : Buf β} (h : a.size = b.size) (i : Nat) (k : M γ) :
    (a.read i >>= fun _ => k) = (b.read i >>= fun _ => k) := by
  unfold Buf.read
  rw [h]
  split <;> rfl

omit [Scalar α] in
theorem ctorReads_congr {dim : Nat} {a b : CtorArrays α} (h : Agree dim a b) :
    ctorReads dim a = ctorReads dim b := by
  unfold ctorReads
  simp only [read_size h.size, read_size h.mp, read_size h.mt, read_size h.mat]

theorem cConstruct_congr {dim : Nat} {a b : CtorArrays α} (h : Agree dim a b) (env : Env α)
    (micro : Int) (j : Junk α) (f : Files α) :
    cConstruct env dim micro a j f = cConstruct env dim micro b j f := by
  have e : constructF env (a.args dim micro) j f = constructF env (b.args dim micro) j f := by
    unfold constructF construct
    rw [mkCfg_congr h]
    rfl
  unfold cConstruct
  rw [ctorReads_congr h, e]

/-! ## Expressions and arrays -/

theorem set_apply {ι β : Type} [DecidableEq ι] (g : ι → β) (x y : ι) (b : β) :
    set g x b y = if y = x then b else g y := rfl

omit [Scalar α] in
theorem arg_eq {c : Ctx α} {s : St α} {k : Nat} {n : Int} (h : c.argv[k]? = some n) :
    ival c s (.arg (k + 1)) = .ok n := by
  simp only [ival, h]
  rfl

omit [Scalar α] in
theorem opt_eq {c : Ctx α} {s : St α} {l rest : List Int} {k : Nat} (h : c.argv = l ++ rest)
    (hk : l.length + 1 = k) : ival c s (.opt k (.arg k) (.lit 10)) = .ok (rest.headD 10) := by
  subst hk
  cases rest with
  | nil => simp [ival, argc, h]
  | cons x r =>
    simp only [ival, argc, h]
    simp

omit [Scalar α] in
theorem readI_nat (b : Buf α) (k : Nat) : b.readI (k : Int) = b.read k := by
  simp [Buf.readI]

omit [Scalar α] in
theorem readI_ofNat (b : Buf α) (k : Nat) [k.AtLeastTwo] :
    b.readI (OfNat.ofNat k : Int) = b.read (OfNat.ofNat k) := readI_nat b k

/-! ## The time step -/

/-- The memory of a program and the state of the model: `x` names the array of the stress. -/
structure Rel (x : DA) (dir : Int) (s : St α) (r : Drive α) : Prop where
  obj : s.obj = some r.state
  eps : s.da .eps = some r.eps
  sig : s.da x = some r.sig
  out : s.out = r.out
  d : s.d .d_eps = some 0.01
  dir : s.i .dir = some dir

theorem load_eq (c : Ctx α) {s : St α} {t : Nat} {dir : Int} {eps : Buf α}
    (ht : s.i .t = some (t : Int)) (he : s.da .eps = some eps) (hd : s.d .d_eps = some 0.01)
    (hi : s.i .dir = some dir) :
    exec c (.iflt (.v .t) (.lit 30) (.dadd .eps (.v .dir) (.v .d_eps)) (
      .iflt (.v .t) (.lit 80) (.dsub .eps (.v .dir) (.v .d_eps)) (
      .iflt (.v .t) (.lit 130) (.dadd .eps (.v .dir) (.v .d_eps)) (
      .iflt (.v .t) (.lit 250) (.dsub .eps (.v .dir) (.v .d_eps)) (
      .dadd .eps (.v .dir) (.v .d_eps)))))) s
    = (loadStep t dir eps >>= fun b => pure { s with da := set s.da .eps (some b) }) := by
  have l30 : ((t : Int) < 30) = (t < 30) := by simp
  have l80 : ((t : Int) < 80) = (t < 80) := by simp
  have l130 : ((t : Int) < 130) = (t < 130) := by simp
  have l250 : ((t : Int) < 250) = (t < 250) := by simp
  simp only [exec, ival, dval, ht, he, hd, hi, need, M_bind_ok', pure_bind, l30, l80, l130, l250,
    loadStep, bind_assoc]
  split_ifs <;> rfl

theorem exec_two (c : Ctx α) (a b d : Stm) (s : St α) :
    exec c (a ;; b ;; d) s = (exec c a s >>= fun s => exec c b s >>= fun s => exec c d s) := rfl

theorem bind_eq {β γ : Type} (x : M β) (f : β → M γ) : Except.bind x f = (x >>= f) := rfl

omit [Scalar α] in
theorem printRow3 (a : Buf α) : printRow 3 a = (do
    let x ← a.readI 0
    let y ← a.readI 1
    let z ← a.readI 2
    pure [.num x, .num y, .num z]) := by
  simp only [printRow, emit, loop, bind_eq, M_bind_ok', bind_assoc, pure_bind, List.nil_append,
    List.cons_append]
  rfl

omit [Scalar α] in
theorem printRow6 (a : Buf α) : printRow 6 a = (do
    let x0 ← a.readI 0
    let x1 ← a.readI 1
    let x2 ← a.readI 2
    let x3 ← a.readI 3
    let x4 ← a.readI 4
    let x5 ← a.readI 5
    pure [.num x0, .num x1, .num x2, .num x3, .num x4, .num x5]) := by
  simp only [printRow, emit, loop, bind_eq, M_bind_ok', bind_assoc, pure_bind, List.nil_append,
    List.cons_append]
  rfl

theorem print_step (c : Ctx α) {s : St α} {t : Nat} (l : String) (ht : s.i .t = some (t : Int)) :
    exec c (.print [.str l, .int (.v .t), .endl]) s
      = .ok { s with out := s.out ++ [.str l, .int t, .endl] } := by
  simp only [exec, evals, tok, ival, ht, need, M_bind_ok', pure_bind]
  rfl

theorem step3_eq (c : Ctx α) {env : Env α} (hc : c.lib = .model env) {t : Nat} {dir : Int} {s : St α} {r : Drive α} (h : Rel .sig dir s r)
    (ht : s.i .t = some (t : Int)) :
    Sim (Rel .sig dir) (exec c step_test3d_1 s) (mainStep env dir "sig = " 6 t r) := by
  unfold step_test3d_1 mainStep
  rw [exec_two, print_step c _ ht, M_bind_ok',
    load_eq c (s := { s with out := s.out ++ [.str "time step = ", .int t, .endl] }) ht h.eps h.d
      h.dir, bind_assoc]
  refine Sim.same fun eps he => ?_
  simp only [exec, hc, Lib.model, evals, tok, ival, dval, onObj, h.obj, h.sig, h.out, h.dir, ht, need,
    M_bind_ok', pure_bind, bind_assoc, set_apply, reduceCtorEq, if_true, if_false, printRow6]
  refine Sim.same fun o1 h1 => Sim.same fun o2 h2 => Sim.same fun g h3 => Sim.same fun o3 h4 =>
    Sim.same fun o4 h5 => Sim.same fun e h6 => Sim.same fun x0 _ => Sim.same fun x1 _ =>
    Sim.same fun x2 _ => Sim.same fun x3 _ => Sim.same fun x4 _ => Sim.same fun x5 _ =>
    Sim.same fun o5 h7 => ?_
  exact ⟨rfl, rfl, rfl, by simp, h.d, h.dir⟩

theorem step2_eq (c : Ctx α) {env : Env α} (hc : c.lib = .model env) {t : Nat} {dir : Int} {s : St α} {r : Drive α}
    (h : Rel .MacroStress dir s r) (ht : s.i .t = some (t : Int)) :
    Sim (Rel .MacroStress dir) (exec c step_test2d_1 s)
      (mainStep env dir "MacroStress = " 3 t r) := by
  unfold step_test2d_1 mainStep
  rw [exec_two, print_step c _ ht, M_bind_ok',
    load_eq c (s := { s with out := s.out ++ [.str "time step = ", .int t, .endl] }) ht h.eps h.d
      h.dir, bind_assoc]
  refine Sim.same fun eps he => ?_
  simp only [exec, hc, Lib.model, evals, tok, ival, dval, onObj, h.obj, h.sig, h.out, h.dir, ht, need,
    M_bind_ok', pure_bind, bind_assoc, set_apply, reduceCtorEq, if_true, if_false, printRow3]
  refine Sim.same fun o1 h1 => Sim.same fun o2 h2 => Sim.same fun g h3 => Sim.same fun o3 h4 =>
    Sim.same fun o4 h5 => Sim.same fun e h6 => Sim.same fun x0 _ => Sim.same fun x1 _ =>
    Sim.same fun x2 _ => Sim.same fun o5 h7 => ?_
  exact ⟨rfl, rfl, rfl, by simp, h.d, h.dir⟩

/-! ## The time step of test3d_8 -/

/-- The memory of test3d_8 and the state of the model. -/
structure Rel8 (s : St α) (r : Drive α) : Prop extends Rel .sig 2 s r where
  ngp : s.i .ngp = some 2

theorem row_eq (c : Ctx α) {a : DA} {b : Buf α} {s : St α} (hb : s.da a = some b) :
    Sim (fun s' p => (∀ v, v ≠ .i → s'.i v = s.i v) ∧ s'.d = s.d ∧ s'.da = s.da ∧ s'.obj = s.obj ∧
        s'.out = s.out ++ p)
      (exec c (.forlt .i (.lit 6) (.print [.num (.ix a (.v .i))])) s) (printRow 6 b) := by
  simp only [exec, ival, pure_bind]
  unfold printRow emit
  refine Sim.loop (fun k s' p h => ?_) 6 ⟨fun _ _ => rfl, rfl, rfl, rfl, by simp⟩
  obtain ⟨h1, h2, h3, h4, h5⟩ := h
  simp only [evals, tok, dval, ival, need, set_apply, if_true, M_bind_ok', h3, hb, readI_nat,
    bind_assoc, pure_bind]
  refine Sim.same fun x _ => Sim.ok ⟨fun v hv => ?_, h2, rfl, h4, ?_⟩
  · show set _ _ _ v = _
    rw [set_apply, if_neg hv, h1 v hv]
  · show _ ++ _ = _
    rw [h5, List.append_assoc]

theorem exec_seq (c : Ctx α) (a b : Stm) (s : St α) :
    exec c (a ;; b) s = (exec c a s >>= fun s => exec c b s) := rfl

theorem setGps_eq (c : Ctx α) {env : Env α} (hc : c.lib = .model env) {s : St α} {r : Drive α} (h : Rel8 s r) :
    Sim Rel8 (exec c (.forlt .gp (.v .ngp) (
      .setStrain (.v .gp) .eps ;;
      .print [.str "gp = ", .int (.v .gp), .str " eps = "] ;;
      .forlt .i (.lit 6) (.print [.num (.ix .eps (.v .i))]) ;;
      .print [.endl])) s) (setGps env 2 r) := by
  rw [exec]
  simp only [ival, h.ngp, need, M_bind_ok']
  unfold setGps
  refine Sim.loop (fun k s r h => ?_) 2 h
  have e1 : exec c (.setStrain (.v .gp) .eps) { s with i := set s.i .gp (some (k : Int)) }
      = (cSetStrain env r.state k r.eps >>= fun o =>
        pure { s with i := set s.i .gp (some (k : Int)), obj := some o }) := by
    simp only [exec, hc, Lib.model, ival, set_apply, if_true, need, M_bind_ok', h.eps, onObj, h.obj]
  rw [exec_two, e1, bind_assoc]
  refine Sim.same fun o _ => ?_
  rw [pure_bind]
  have e2 : exec c (.print [.str "gp = ", .int (.v .gp), .str " eps = "])
      { s with i := set s.i .gp (some (k : Int)), obj := some o }
      = .ok { s with i := set s.i .gp (some (k : Int)), obj := some o,
                     out := s.out ++ [.str "gp = ", .int k, .str " eps = "] } := by
    simp only [exec, evals, tok, ival, set_apply, if_true, need, M_bind_ok', pure_bind]
    rfl
  rw [e2, M_bind_ok', exec_seq]
  refine Sim.bind (row_eq c (b := r.eps) (by exact h.eps)) fun s' p ⟨h1, h2, h3, h4, h5⟩ => ?_
  simp only [exec, evals, tok, pure_bind]
  refine Sim.ok ⟨⟨h4, ?_, ?_, ?_, ?_, ?_⟩, ?_⟩
  · exact (congrFun h3 _).trans h.eps
  · exact (congrFun h3 _).trans h.sig
  · show s'.out ++ _ = _
    rw [h5]
    show s.out ++ _ ++ _ ++ _ = _
    rw [h.out]
  · exact (congrFun h2 _).trans h.d
  · exact (h1 .dir (by decide)).trans h.dir
  · exact (h1 .ngp (by decide)).trans h.ngp

theorem getGps_eq (c : Ctx α) {env : Env α} (hc : c.lib = .model env) {s : St α} {r : Drive α} (h : Rel8 s r) :
    Sim Rel8 (exec c (.forlt .gp (.v .ngp) (
      .getStress (.v .gp) .sig ;;
      .print [.str "gp = ", .int (.v .gp), .str " sig = "] ;;
      .forlt .i (.lit 6) (.print [.num (.ix .sig (.v .i))]) ;;
      .print [.endl])) s) (getGps env 2 r) := by
  rw [exec]
  simp only [ival, h.ngp, need, M_bind_ok']
  unfold getGps
  refine Sim.loop (fun k s r h => ?_) 2 h
  have e1 : exec c (.getStress (.v .gp) .sig) { s with i := set s.i .gp (some (k : Int)) }
      = (cGetStress env r.state k r.sig >>= fun g =>
        pure { s with i := set s.i .gp (some (k : Int)), obj := some g.state,
                      da := set s.da .sig (some g.arr) }) := by
    simp only [exec, hc, Lib.model, ival, set_apply, if_true, need, M_bind_ok', h.sig, h.obj]
  rw [exec_two, e1, bind_assoc]
  refine Sim.same fun g _ => ?_
  rw [pure_bind]
  have e2 : exec c (.print [.str "gp = ", .int (.v .gp), .str " sig = "])
      { s with i := set s.i .gp (some (k : Int)), obj := some g.state,
               da := set s.da .sig (some g.arr) }
      = .ok { s with i := set s.i .gp (some (k : Int)), obj := some g.state,
                     da := set s.da .sig (some g.arr),
                     out := s.out ++ [.str "gp = ", .int k, .str " sig = "] } := by
    simp only [exec, evals, tok, ival, set_apply, if_true, need, M_bind_ok', pure_bind]
    rfl
  rw [e2, M_bind_ok', exec_seq]
  refine (row_eq c (b := g.arr) rfl).bind fun s' p ⟨h1, h2, h3, h4, h5⟩ => ?_
  simp only [exec, evals, tok, pure_bind]
  refine Sim.ok ⟨⟨h4, ?_, ?_, ?_, ?_, ?_⟩, ?_⟩
  · exact (congrFun h3 _).trans h.eps
  · exact congrFun h3 _
  · show s'.out ++ _ = _
    rw [h5]
    show s.out ++ _ ++ _ ++ _ = _
    rw [h.out]
  · exact (congrFun h2 _).trans h.d
  · exact (h1 .dir (by decide)).trans h.dir
  · exact (h1 .ngp (by decide)).trans h.ngp

theorem step8_eq (c : Ctx α) {env : Env α} (hc : c.lib = .model env) {t : Nat} {s : St α} {r : Drive α} (h : Rel8 s r)
    (ht : s.i .t = some (t : Int)) :
    Sim Rel8 (exec c step_test3d_8 s) (mainStep8 env t r) := by
  unfold step_test3d_8 mainStep8
  rw [exec_two, print_step c _ ht, M_bind_ok',
    load_eq c (s := { s with out := s.out ++ [.str "Time step = ", .int t, .endl] }) ht h.eps h.d
      h.dir, bind_assoc]
  refine Sim.same fun eps he => ?_
  rw [pure_bind, exec_two]
  have e1 : exec c (.print [.str "setting strains ...", .endl])
      { s with da := set s.da .eps (some eps),
               out := s.out ++ [.str "Time step = ", .int t, .endl] }
      = .ok { s with da := set s.da .eps (some eps),
                     out := s.out ++ [.str "Time step = ", .int t, .endl] ++
                       [.str "setting strains ...", .endl] } := rfl
  rw [e1, M_bind_ok']
  refine Sim.bind (setGps_eq c hc (r := { r with
    eps := eps
    out := r.out ++ [.str "Time step = ", .int t, .endl, .str "setting strains ...", .endl] })
    (by exact ⟨⟨h.obj, rfl, h.sig, by simp [h.out], h.d, h.dir⟩, h.ngp⟩)) fun s r h => ?_
  have e2 : exec c (.ddecl .MacroStress (.lit 6) ;; .ddecl .MacroCtan (.lit 36) ;;
      .print [.str "Homogenizing ...", .endl] ;; .homogenize ;;
      .print [.str "Getting stresses ...", .endl]) s
      = (cCall env r.state .homogenize >>= fun o => pure { s with
          da := set (set s.da .MacroStress (some ⟨6, c.jk.d .MacroStress⟩)) .MacroCtan
            (some ⟨36, c.jk.d .MacroCtan⟩)
          obj := some o
          out := s.out ++ [.str "Homogenizing ...", .endl] ++ [.str "Getting stresses ...", .endl] }) := by
    simp only [exec, hc, Lib.model, evals, tok, ival, onObj, need, h.obj, M_bind_ok', pure_bind, bind_assoc]
    rfl
  have e3 : ∀ (a b d e f g : Stm), exec c (a ;; b ;; d ;; e ;; f ;; g) s
      = (exec c (a ;; b ;; d ;; e ;; f) s >>= fun s => exec c g s) := by
    intro a b d e f g
    simp only [exec_seq, bind_assoc]
  rw [e3, e2, bind_assoc]
  refine Sim.same fun o _ => ?_
  rw [pure_bind, exec_seq]
  refine Sim.bind (getGps_eq c hc (r := { r with
    state := o
    out := r.out ++ [.str "Homogenizing ...", .endl, .str "Getting stresses ...", .endl] })
    (by exact ⟨⟨rfl, h.eps, h.sig, by simp [h.out], h.d, h.dir⟩, h.ngp⟩)) fun s r h => ?_
  simp only [exec, hc, Lib.model, evals, tok, onObj, need, h.obj, M_bind_ok', pure_bind, bind_assoc]
  exact Sim.same fun o1 _ => Sim.same fun o2 _ =>
    Sim.ok ⟨⟨rfl, h.eps, h.sig, by simp [h.out], h.d, h.dir⟩, h.ngp⟩

/-! ## The programs -/

theorem Rel.drive {x : DA} {dir : Int} {s : St α} {r : Drive α} (h : Rel x dir s r) :
    s.drive x = some r := by
  simp only [St.drive, h.obj, h.eps, h.sig, h.out]
  rfl

theorem Rel.setT {x : DA} {dir : Int} {s : St α} {r : Drive α} (h : Rel x dir s r) (v : Option Int) :
    Rel x dir { s with i := set s.i .t v } r :=
  ⟨h.obj, h.eps, h.sig, h.out, h.d, h.dir⟩

theorem Rel8.setT {s : St α} {r : Drive α} (h : Rel8 s r) (v : Option Int) :
    Rel8 { s with i := set s.i .t v } r :=
  ⟨h.toRel.setT v, h.ngp⟩

theorem prog_eq {R : St α → Drive α → Prop} {x : DA} {c : Ctx α} {env : Env α} (hc : c.lib = .model env) {p : Prog} {init step : Stm}
    {g : Nat → Drive α → M (Drive α)} {s0 : St α} {dim : Nat} {micro steps : Int} {cb : CtorArrays α}
    (hR : ∀ s r, R s r → s.drive x = some r)
    (hT : ∀ s r (v : Option Int), R s r → R { s with i := set s.i .t v } r)
    (hstep : ∀ (t : Nat) s r, R s r → s.i .t = some (t : Int) → Sim R (exec c step s) (g t r))
    (hp : exec c p.pre start = .ok s0) (hl : ¬ argc c < p.least)
    (hb : p.body = (init ;; .forlt .t (.v .time_steps) step)) (h0 : p.ret = 0)
    (hi : ∃ (st : ObjFiles α → St α) (ca : CtorArrays α),
      exec c init s0 = (c.lib.ctor dim micro ca c.j c.f >>= fun o => pure (st o)) ∧
      Agree dim ca cb ∧
      ∀ o, R (st o) { state := o, eps := ⟨6, fun _ => 0⟩, sig := ⟨6, c.jk.d x⟩, out := [] } ∧
        (st o).i .time_steps = some steps) :
    (fun r => (r.1, r.2.bind (St.drive x))) <$> runProg c p = (do
      let s ← cConstruct env dim micro cb c.j c.f
      let r ← mainLoop g steps (c.jk.main x) s
      pure (r.1, some r.2)) := by
  obtain ⟨st, ca, hi, ha, hs⟩ := hi
  apply Sim.eq
  unfold runProg
  rw [hp, M_bind_ok', if_neg hl, hb, exec_seq, hi, hc,
    show (Lib.model env).ctor dim micro ca c.j c.f = cConstruct env dim micro ca c.j c.f from rfl, cConstruct_congr ha, bind_assoc, bind_assoc]
  refine Sim.same fun o _ => ?_
  rw [pure_bind, exec]
  simp only [ival, (hs _).2, need, M_bind_ok', mainLoop, bind_assoc, pure_bind]
  refine (Sim.loop (R := R) (fun k s r h => hstep k _ r (hT s r _ h) rfl) steps.toNat (hs o).1).bind
    fun s r h => ?_
  refine Sim.ok ?_
  simp only [h0, Option.bind_some, hR s r h]

omit [Scalar α] in
/-- A statement about every library, for one. -/
theorem at_lib {σ τ : Type} {P : Lib α → σ → τ → Prop} {Q : σ → τ → Prop}
    (h : ∃ st ca, (∀ l, P l st ca) ∧ Q st ca) (l : Lib α) : ∃ st ca, P l st ca ∧ Q st ca := by
  obtain ⟨st, ca, h1, h2⟩ := h
  exact ⟨st, ca, h1 l, h2⟩

theorem prog_error {c : Ctx α} {p : Prog} {init r : Stm} {s0 : St α} {e : Fault}
    (hp : exec c p.pre start = .ok s0) (hl : ¬ argc c < p.least) (hb : p.body = (init ;; r))
    (hi : exec c init s0 = .error e) : runProg c p = .error e := by
  unfold runProg
  rw [hp, M_bind_ok', if_neg hl, hb, exec_seq, hi]
  rfl

/-! ## Statement by statement -/

section
variable {c : Ctx α} {l : Lib α} {j : Junk α} {jk : Jk α} {f : Files α} {av : List Int} {s : St α} {r : Stm} {i : IV → Option Int} {d : DV → Option α}
  {ia : IA → Option (Buf Int)} {da : DA → Option (Buf α)} {ob : Option (ObjFiles α)}
  {o : List (Tok α)}

theorem go_iset {x : IV} {e : IE} {n : Int} (h : ival c ⟨i, d, ia, da, ob, o⟩ e = .ok n) :
    exec c (.iset x e ;; r) ⟨i, d, ia, da, ob, o⟩ = exec c r ⟨set i x (some n), d, ia, da, ob, o⟩ := by
  simp only [exec, h, M_bind_ok', pure_bind]

theorem go_dset {x : DV} {e : DE} {n : α} (h : dval c ⟨i, d, ia, da, ob, o⟩ e = .ok n) :
    exec c (.dset x e ;; r) ⟨i, d, ia, da, ob, o⟩ = exec c r ⟨i, set d x (some n), ia, da, ob, o⟩ := by
  simp only [exec, h, M_bind_ok', pure_bind]

theorem go_idecl {a : IA} {e : IE} {n : Int} (h : ival ⟨l, j, jk, f, av⟩ ⟨i, d, ia, da, ob, o⟩ e = .ok n) :
    exec ⟨l, j, jk, f, av⟩ (.idecl a e ;; r) ⟨i, d, ia, da, ob, o⟩
      = exec ⟨l, j, jk, f, av⟩ r ⟨i, d, set ia a (some ⟨n.toNat, jk.i a⟩), da, ob, o⟩ := by
  simp only [exec, h, M_bind_ok', pure_bind]

theorem go_ddecl {a : DA} {e : IE} {n : Int} (h : ival ⟨l, j, jk, f, av⟩ ⟨i, d, ia, da, ob, o⟩ e = .ok n) :
    exec ⟨l, j, jk, f, av⟩ (.ddecl a e ;; r) ⟨i, d, ia, da, ob, o⟩
      = exec ⟨l, j, jk, f, av⟩ r ⟨i, d, ia, set da a (some ⟨n.toNat, jk.d a⟩), ob, o⟩ := by
  simp only [exec, h, M_bind_ok', pure_bind]

theorem go_iinit {a : IA} {e : IE} {l : List IE} {n : Int} {v : List Int} (h : ival c ⟨i, d, ia, da, ob, o⟩ e = .ok n)
    (hl : evals (ival c ⟨i, d, ia, da, ob, o⟩) l = .ok v) : exec c (.iinit a e l ;; r) ⟨i, d, ia, da, ob, o⟩
      = exec c r ⟨i, d, set ia a (some ⟨n.toNat, fun k => v.getD k 0⟩), da, ob, o⟩ := by
  simp only [exec, h, hl, M_bind_ok', pure_bind]

theorem go_dinit {a : DA} {e : IE} {l : List DE} {n : Int} {v : List α} (h : ival c ⟨i, d, ia, da, ob, o⟩ e = .ok n)
    (hl : evals (dval c ⟨i, d, ia, da, ob, o⟩) l = .ok v) : exec c (.dinit a e l ;; r) ⟨i, d, ia, da, ob, o⟩
      = exec c r ⟨i, d, ia, set da a (some ⟨n.toNat, fun k => v.getD k 0⟩), ob, o⟩ := by
  simp only [exec, h, hl, M_bind_ok', pure_bind]

theorem go_iput {a : IA} {k e : IE} {n v : Int} {b : Buf Int} (hv : ival c ⟨i, d, ia, da, ob, o⟩ e = .ok v)
    (hk : ival c ⟨i, d, ia, da, ob, o⟩ k = .ok n) (hb : ia a = some b) (h0 : decide (0 ≤ n) = true)
    (hn : decide (n.toNat < b.size) = true) :
    exec c (.iput a k e ;; r) ⟨i, d, ia, da, ob, o⟩ = exec c r ⟨i, d, set ia a (
      some ⟨b.size, fun q => if q = n.toNat then v else b.val q⟩), da, ob, o⟩ := by
  simp only [exec, hv, hk, hb, need, Buf.writeI, Buf.write, if_pos (of_decide_eq_true h0),
    if_pos (of_decide_eq_true hn), M_bind_ok',
    pure_bind]

theorem go_dput {a : DA} {k : IE} {e : DE} {n : Int} {v : α} {b : Buf α} (hv : dval c ⟨i, d, ia, da, ob, o⟩ e = .ok v)
    (hk : ival c ⟨i, d, ia, da, ob, o⟩ k = .ok n) (hb : da a = some b) (h0 : decide (0 ≤ n) = true)
    (hn : decide (n.toNat < b.size) = true) :
    exec c (.dput a k e ;; r) ⟨i, d, ia, da, ob, o⟩ = exec c r ⟨i, d, ia, set da a (
      some ⟨b.size, fun q => if q = n.toNat then v else b.val q⟩), ob, o⟩ := by
  simp only [exec, hv, hk, hb, need, Buf.writeI, Buf.write, if_pos (of_decide_eq_true h0),
    if_pos (of_decide_eq_true hn), M_bind_ok',
    pure_bind]

theorem go_last {a : Stm} : exec c a ⟨i, d, ia, da, ob, o⟩ = exec c (a ;; .skip) ⟨i, d, ia, da, ob, o⟩ := by
  rw [exec_seq]
  exact (bind_pure _).symm

theorem go_skip : exec c .skip ⟨i, d, ia, da, ob, o⟩ = pure ⟨i, d, ia, da, ob, o⟩ := rfl

theorem go_ctor {dd m : IE} {z t : IA} {p q : DA} {dim micro : Int} {bz bt : Buf Int}
    {bp bq : Buf α} (hd : ival ⟨l, j, jk, f, av⟩ ⟨i, d, ia, da, ob, o⟩ dd = .ok dim) (hm : ival ⟨l, j, jk, f, av⟩ ⟨i, d, ia, da, ob, o⟩ m = .ok micro) (hz : ia z = some bz)
    (ht : ia t = some bt) (hp : da p = some bp) (hq : da q = some bq) :
    exec ⟨l, j, jk, f, av⟩ (.ctor dd z m p t q ;; r) ⟨i, d, ia, da, ob, o⟩
      = (l.ctor dim.toNat micro ⟨⟨bz.size, fun k => (bz.val k).toNat⟩, bp, bt, bq⟩ j f
        >>= fun oo => exec ⟨l, j, jk, f, av⟩ r ⟨i, d, ia, da, some oo, o⟩) := by
  simp only [exec, hd, hm, hz, ht, hp, hq, need, M_bind_ok', pure_bind, bind_assoc]
theorem go_assert {l : List (IE × IE)} (h : allGt c s l = .ok true) :
    exec c (.assert l ;; r) s = exec c r s := by
  simp only [exec, h, M_bind_ok', if_true, pure_bind]

theorem go_abort {l : List (IE × IE)} (h : allGt c s l = .ok false) :
    exec c (.assert l ;; r) s = .error .abort := by
  simp only [exec, h, M_bind_ok']
  rfl

omit [Scalar α] in
theorem allGt_two {x y : IV} {m n : Int} (hx : s.i x = some m) (hy : s.i y = some n) :
    allGt c s [(.v x, .lit 1), (.v y, .lit 1)] = .ok (decide (m > 1 ∧ n > 1)) := by
  simp only [allGt, ival, hx, hy, need, M_bind_ok', pure_bind]
  by_cases h1 : m > 1 <;> by_cases h2 : n > 1 <;> simp [h1, h2]

omit [Scalar α] in
theorem allGt_three {x y z : IV} {m n k : Int} (hx : s.i x = some m) (hy : s.i y = some n)
    (hz : s.i z = some k) : allGt c s [(.v x, .lit 1), (.v y, .lit 1), (.v z, .lit 1)]
      = .ok (decide (m > 1 ∧ n > 1 ∧ k > 1)) := by
  simp only [allGt, ival, hx, hy, hz, need, M_bind_ok', pure_bind]
  by_cases h1 : m > 1 <;> by_cases h2 : n > 1 <;> by_cases h3 : k > 1 <;> simp [h1, h2, h3]
end

theorem eps_zero (L : Text.LitLaws α) : (fun k => ([dec 0 (-1), dec 0 (-1), dec 0 (-1), dec 0 (-1),
    dec 0 (-1), dec 0 (-1)] : List α).getD k 0) = fun _ => 0 := by
  have h0 : (dec 0 (-1) : α) = 0 := L.zeroD
  funext k
  rw [h0]
  match k with
  | 0 => rfl
  | 1 => rfl
  | 2 => rfl
  | 3 => rfl
  | 4 => rfl
  | 5 => rfl
  | _ + 6 => rfl

section
attribute [local irreducible] exec

/-- One assignment or declaration. -/
local macro "go" : tactic => `(tactic| first
  | refine Eq.trans (go_iset rfl) ?_
  | refine Eq.trans (go_iset (opt_eq (l := [_, _]) rfl rfl)) ?_
  | refine Eq.trans (go_iset (opt_eq (l := [_, _, _]) rfl rfl)) ?_
  | refine Eq.trans (go_iset (opt_eq (l := [_, _, _, _]) rfl rfl)) ?_
  | refine Eq.trans (go_dset rfl) ?_
  | refine Eq.trans (go_idecl rfl) ?_
  | refine Eq.trans (go_ddecl rfl) ?_
  | refine Eq.trans (go_iinit rfl rfl) ?_
  | refine Eq.trans (go_dinit rfl rfl) ?_
  | refine Eq.trans (go_iput rfl rfl rfl rfl rfl) ?_
  | refine Eq.trans (go_dput rfl rfl rfl rfl rfl) ?_)

theorem init_test3d_1_ok (L : Text.LitLaws α) (j : Junk α) (jk : Jk α) (f : Files α)
    (nx ny nz dir : Int) (rest : List Int) : ∃ (st : ObjFiles α → St α) (ca : CtorArrays α),
      (∀ l, exec ⟨l, j, jk, f, nx :: ny :: nz :: dir :: rest⟩ init_test3d_1 ⟨set (fun _ => none) .dim (some 3), fun _ => none, fun _ => none, fun _ => none, none, []⟩
        = (l.ctor 3 1 ca j f >>= fun o => pure (st o))) ∧
      Agree 3 ca (arrays3d1 nx.toNat ny.toNat nz.toNat (jk.main .sig)) ∧
      ∀ o, Rel .sig dir (st o) { state := o, eps := ⟨6, fun _ => 0⟩, sig := ⟨6, jk.d .sig⟩, out := [] } ∧
        (st o).i .time_steps = some (rest.headD 10) := by
  apply Exists.intro
  apply Exists.intro
  apply And.intro
  · intro l
    unfold init_test3d_1
    repeat go
    refine Eq.trans (go_ctor rfl rfl rfl rfl rfl rfl) ?_
    refine congrArg (l.ctor _ _ _ _ _ >>= ·) (funext fun o => ?_)
    repeat go
    refine Eq.trans go_last ?_
    go
    exact go_skip
  refine ⟨⟨rfl, rfl, rfl, rfl, fun i hi _ => ?_, fun i hi => ?_, fun i hi => ?_, fun i k hi hk => ?_⟩,
    fun o => ⟨⟨rfl, congrArg (fun z => some (Buf.mk 6 z)) (eps_zero L), rfl, rfl, rfl, rfl⟩, rfl⟩⟩
  · interval_cases i <;> rfl
  · interval_cases i <;> rfl
  · interval_cases i <;> rfl
  · interval_cases i <;> interval_cases k <;> rfl

theorem init_test3d_7_ok (L : Text.LitLaws α) (j : Junk α) (jk : Jk α) (f : Files α)
    (nx ny nz : Int) (rest : List Int) : ∃ (st : ObjFiles α → St α) (ca : CtorArrays α),
      (∀ l, exec ⟨l, j, jk, f, nx :: ny :: nz :: rest⟩ init_test3d_7 ⟨set (fun _ => none) .dim (some 3), fun _ => none, fun _ => none, fun _ => none, none, []⟩
        = (l.ctor 3 1 ca j f >>= fun o => pure (st o))) ∧
      Agree 3 ca (arrays3d7 nx.toNat ny.toNat nz.toNat (jk.main .sig)) ∧
      ∀ o, Rel .sig 2 (st o) { state := o, eps := ⟨6, fun _ => 0⟩, sig := ⟨6, jk.d .sig⟩, out := [] } ∧
        (st o).i .time_steps = some (rest.headD 10) := by
  apply Exists.intro
  apply Exists.intro
  apply And.intro
  · intro l
    unfold init_test3d_7
    repeat go
    refine Eq.trans (go_ctor rfl rfl rfl rfl rfl rfl) ?_
    refine congrArg (l.ctor _ _ _ _ _ >>= ·) (funext fun o => ?_)
    repeat go
    refine Eq.trans go_last ?_
    go
    exact go_skip
  refine ⟨⟨rfl, rfl, rfl, rfl, fun i hi _ => ?_, fun i hi => ?_, fun i hi => ?_, fun i k hi hk => ?_⟩,
    fun o => ⟨⟨rfl, congrArg (fun z => some (Buf.mk 6 z)) (eps_zero L), rfl, rfl, rfl, rfl⟩, rfl⟩⟩
  · interval_cases i <;> rfl
  · interval_cases i <;> first | rfl | exact L.zero
  · interval_cases i <;> rfl
  · interval_cases i <;> interval_cases k <;> rfl

theorem init_test2d_1_ok (L : Text.LitLaws α) (j : Junk α) (jk : Jk α) (f : Files α)
    (nx ny : Int) (rest : List Int) (ha : nx > 1 ∧ ny > 1) : ∃ (st : ObjFiles α → St α) (ca : CtorArrays α),
      (∀ l, exec ⟨l, j, jk, f, nx :: ny :: rest⟩ init_test2d_1 ⟨fun _ => none, fun _ => none, fun _ => none, fun _ => none, none, []⟩
        = (l.ctor 2 1 ca j f >>= fun o => pure (st o))) ∧
      Agree 2 ca (arrays2d1 nx.toNat ny.toNat (jk.main .MacroStress)) ∧
      ∀ o, Rel .MacroStress 2 (st o) { state := o, eps := ⟨6, fun _ => 0⟩, sig := ⟨6, jk.d .MacroStress⟩, out := [] } ∧
        (st o).i .time_steps = some (rest.headD 10) := by
  apply Exists.intro
  apply Exists.intro
  apply And.intro
  · intro l
    unfold init_test2d_1
    repeat go
    refine Eq.trans (go_assert ((allGt_two rfl rfl).trans (by simp [ha]))) ?_
    repeat go
    refine Eq.trans (go_ctor rfl rfl rfl rfl rfl rfl) ?_
    refine congrArg (l.ctor _ _ _ _ _ >>= ·) (funext fun o => ?_)
    repeat go
    refine Eq.trans go_last ?_
    go
    exact go_skip
  refine ⟨⟨rfl, rfl, rfl, rfl, fun i hi hd => ?_, fun i hi => ?_, fun i hi => ?_, fun i k hi hk => ?_⟩,
    fun o => ⟨⟨rfl, congrArg (fun z => some (Buf.mk 6 z)) (eps_zero L), rfl, rfl, rfl, rfl⟩, rfl⟩⟩
  · interval_cases i <;> first | rfl | exact absurd (hd rfl) (by decide)
  · interval_cases i <;> first | rfl | exact L.zero
  · interval_cases i <;> rfl
  · interval_cases i <;> interval_cases k <;> rfl

theorem init_test3d_8_ok (L : Text.LitLaws α) (j : Junk α) (jk : Jk α) (f : Files α)
    (nx ny nz : Int) (rest : List Int) (ha : nx > 1 ∧ ny > 1 ∧ nz > 1) : ∃ (st : ObjFiles α → St α) (ca : CtorArrays α),
      (∀ l, exec ⟨l, j, jk, f, nx :: ny :: nz :: rest⟩ init_test3d_8 ⟨fun _ => none, fun _ => none, fun _ => none, fun _ => none, none, []⟩
        = (l.ctor 3 1 ca j f >>= fun o => pure (st o))) ∧
      Agree 3 ca (arrays3d8 nx.toNat ny.toNat nz.toNat) ∧
      ∀ o, Rel8 (st o) { state := o, eps := ⟨6, fun _ => 0⟩, sig := ⟨6, jk.d .sig⟩, out := [] } ∧
        (st o).i .time_steps = some (rest.headD 10) := by
  apply Exists.intro
  apply Exists.intro
  apply And.intro
  · intro l
    unfold init_test3d_8
    repeat go
    refine Eq.trans (go_assert ((allGt_three rfl rfl rfl).trans (by simp [ha]))) ?_
    repeat go
    refine Eq.trans (go_ctor rfl rfl rfl rfl rfl rfl) ?_
    refine congrArg (l.ctor _ _ _ _ _ >>= ·) (funext fun o => ?_)
    repeat go
    refine Eq.trans go_last ?_
    go
    exact go_skip
  refine ⟨⟨rfl, rfl, rfl, rfl, fun i hi _ => ?_, fun i hi => ?_, fun i hi => ?_, fun i k hi hk => ?_⟩,
    fun o => ⟨⟨⟨rfl, congrArg (fun z => some (Buf.mk 6 z)) (eps_zero L), rfl, rfl, rfl, rfl⟩, rfl⟩, rfl⟩⟩
  · interval_cases i <;> rfl
  · interval_cases i <;> rfl
  · interval_cases i <;> rfl
  · interval_cases i <;> interval_cases k <;> rfl

theorem init_test2d_1_abort (l : Lib α) (j : Junk α) (jk : Jk α) (f : Files α)
    (nx ny : Int) (rest : List Int) (ha : ¬ (nx > 1 ∧ ny > 1)) :
    exec ⟨l, j, jk, f, nx :: ny :: rest⟩ init_test2d_1
      ⟨fun _ => none, fun _ => none, fun _ => none, fun _ => none, none, []⟩ = .error .abort := by
  unfold init_test2d_1
  repeat go
  exact go_abort ((allGt_two rfl rfl).trans (by rw [decide_eq_false ha]))

theorem init_test3d_8_abort (l : Lib α) (j : Junk α) (jk : Jk α) (f : Files α)
    (nx ny nz : Int) (rest : List Int) (ha : ¬ (nx > 1 ∧ ny > 1 ∧ nz > 1)) :
    exec ⟨l, j, jk, f, nx :: ny :: nz :: rest⟩ init_test3d_8
      ⟨fun _ => none, fun _ => none, fun _ => none, fun _ => none, none, []⟩ = .error .abort := by
  unfold init_test3d_8
  repeat go
  exact go_abort ((allGt_three rfl rfl rfl).trans (by rw [decide_eq_false ha]))

theorem test3d_3_oob (l : Lib α)
    (hl : ∀ dim micro a j f e, ctorReads dim a = .error e → l.ctor dim micro a j f = .error e) (j : Junk α) (jk : Jk α) (f : Files α) (argv : List Int) :
    exec ⟨l, j, jk, f, argv⟩ p_test3d_3
      ⟨fun _ => none, fun _ => none, fun _ => none, fun _ => none, none, []⟩ = .error .oob := by
  unfold p_test3d_3
  repeat go
  refine Eq.trans go_last ?_
  refine Eq.trans (go_ctor rfl rfl rfl rfl rfl rfl) ?_
  rw [hl _ _ _ _ _ .oob rfl]
  rfl
end

end Verif.MainText
