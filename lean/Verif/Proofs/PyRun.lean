import Verif.Proofs.PyStores

/-!
# Whole programs
-/

namespace Interp.PyParse
open Interp.Spec.PyLang
open Interp.Codegen hiding exec

set_option linter.unusedSectionVars false

variable {K : Type} [Add K] [Sub K] [Mul K] [Div K] [Neg K] [Zero K] [One K] [NatCast K]
  [IntCast K] [LT K] [DecidableLT K] [BEq K] [IntFloor K]

variable {cfg : Cfg} {pv : Val K} {c : Ctx K} {env : Env K} {s : State K} {ctx : Env K}

theorem Sim.bind' {α β γ δ : Type} {m : Py α} {p : Py β} {R : α → β → Prop} {f : α → Py γ} {g : β → Py δ} {S : γ → δ → Prop}
    (h : Sim m p R) (h' : ∀ a b, m = .ok a → R a b → Sim (f a) (g b) S) : Sim (m >>= f) (p >>= g) S := by
  rcases m with e | a
  · by_cases he : RunTime e
    · rw [h.2 e he rfl]; exact .err
    · exact .fail he
  · obtain ⟨b, rfl, hr⟩ := h.1 a rfl
    exact h' a b rfl hr

/-- What a statement needs. -/
def stFits (cfg : Cfg) (pv : Val K) (c : Ctx K) : Stmt → Prop
  | .alloc .vals => outDims cfg = 1
  | .alloc (.valsOrders _) => outDims cfg = 2
  | .alloc (.orders _) => outDims cfg = 1
  | .allocateOutput vec no => vec = cfg.vectorValued ∧ no = cfg.orders.map List.length ∧ cfg.vectorized = true ∧
    cfg.vectorValued = decide (c.C.shape.length = c.grid.length + 1) ∧ ∃ P w, pv = .arr P ∧ P.shape = [c.npts, w]
  | .loadX i => (cfg.vectorized = true → ∃ m, c.pre = [m] ∧ getItem pv [.int m, .int i] = listRead c.x i >>= fun x => .ok (.flt x)) ∧
    (cfg.vectorized = false → getItem pv [.int i] = listRead c.x i >>= fun x => .ok (.flt x))
  | .constGuard _ .zeroReturn => outDims cfg ≠ 0
  | .constGuard _ .zeroFall => outDims cfg ≠ 0
  | .constGuard _ .zeroContinue => cfg.vectorized = true ∧ ∃ m, c.pre = [m]
  | .storeComp e => RowOK cfg c ∧ exprVec true e ∧ c.pre.length + 1 = outDims cfg
  | .storeCompOrders as _ => RowOK cfg c ∧ (∀ p ∈ as, exprVec true p.2) ∧ c.pre.length + 2 = outDims cfg
  | .assignVal _ e => exprVec false e
  | .storeVal _ _ => RowOK cfg c ∧ c.pre.length + 1 = outDims cfg
  | .storeScalar e => RowOK cfg c ∧ cfg.vectorized = true ∧ exprVec false e ∧ c.pre.length = outDims cfg ∧ outDims cfg ≠ 0
  | .retVal e => exprVec false e
  | _ => True

theorem sim_stmt (hK : LawfulLit K) (hctx : ∀ g, ctx (nameOf (.glob g)) = some (globVal g)) (h : Rel cfg pv c env s) (st : Stmt)
    (hf : stFits cfg pv c st) : Sim (Codegen.exec c st s) (exec ctx (stmtA cfg st) none env) (Step cfg pv c) := by
  cases st with
  | readNVals d => exact sim_readNVals h d
  | alloc kind => exact sim_alloc hctx h kind (by cases kind <;> exact hf)
  | allocateOutput vec no =>
    obtain ⟨rfl, rfl, h1, h2, h3⟩ := hf
    exact sim_allocateOutput hctx h h1 h2 h3
  | recoverUniform i => exact sim_recoverUniform hK h i
  | recoverNonuniform i b => exact sim_recoverNonuniform h i b
  | loadX i => exact sim_loadX h i hf.1 hf.2
  | clampNearest i => exact sim_clamp hctx h i
  | constGuard i g => exact sim_guard hK h i g (by cases g <;> first | exact hf | trivial)
  | locateUniform i => exact sim_locateUniform hctx h i
  | locateNonuniform i => exact sim_locateNonuniform hctx h i
  | blend1 l i => exact sim_blend1 hK h l i
  | blend3 l i => exact sim_blend3 hK hctx h l i
  | storeComp e => exact sim_storeComp hctx h hf.1 hf.2.1 hf.2.2
  | storeCompOrders as vs => exact sim_storeCompOrders hctx h hf.1 hf.2.1 hf.2.2
  | assignVal n e => exact sim_assignVal h hf
  | storeVal j n => exact sim_storeVal h hf.1 hf.2
  | storeScalar e => exact sim_storeScalar h hf.1 hf.2.1 hf.2.2.1 hf.2.2.2.1 hf.2.2.2.2
  | retVal e => exact sim_retVal h hf
  | retTuple vs => exact sim_retTuple h vs
  | retOut => exact sim_retOut h

theorem sim_run (hK : LawfulLit K) (hctx : ∀ g, ctx (nameOf (.glob g)) = some (globVal g)) (ss : List Stmt)
    (hf : ∀ st ∈ ss, stFits cfg pv c st) (env : Env K) (s : State K) (h : Rel cfg pv c env s) :
    Sim (run c ss s) (exec ctx (stmtsA cfg ss) none env) (Step cfg pv c) := by
  induction ss generalizing env s with
  | nil => exact .ok ⟨h, rfl⟩
  | cons st ss ih =>
    simp only [run]
    rw [show stmtsA cfg (st :: ss) = (stmtA cfg st).append (stmtsA cfg ss) from rfl, exec_append (starts_stmtsA ss)]
    refine (sim_stmt hK hctx h st (hf st (by simp))).bind fun r q hr => ?_
    obtain ⟨r, fl⟩ := r
    obtain ⟨q, ex⟩ := q
    obtain ⟨h1, h2⟩ := hr
    cases fl with
    | next =>
      obtain rfl : ex = .next := h2
      exact ih (fun t ht => hf t (by simp [ht])) q r h1
    | cont =>
      obtain rfl : ex = .cont := h2
      exact .ok ⟨h1, rfl⟩
    | ret w =>
      obtain ⟨w', rfl, h3⟩ := h2
      exact .ok ⟨h1, w', rfl, h3⟩

/-! ### How programs end -/

theorem of_bind {α β : Type} {m : Py α} {f : α → Py β} {r : β} (h : (m >>= f) = .ok r) : ∃ a, m = .ok a ∧ f a = .ok r := by
  rcases m with e | a
  · cases h
  · exact ⟨a, rfl, h⟩

/-- Statements after which the next one follows. -/
def plain : Stmt → Prop
  | .constGuard _ _ | .retVal _ | .retTuple _ | .retOut => False
  | _ => True

theorem exec_plain {st : Stmt} (hp : plain st) {r : State K × Flow K} (h : Codegen.exec c st s = .ok r) : r.2 = .next := by
  cases st with
  | readNVals d =>
    simp only [Codegen.exec, stepDim] at h
    split at h <;> cases h
    rfl
  | alloc kind =>
    cases kind <;> simp only [Codegen.exec, stepDim] at h
    · obtain ⟨_, -, h⟩ := of_bind h; cases h; rfl
    · obtain ⟨_, -, h⟩ := of_bind h; cases h; rfl
    · cases h; rfl
  | allocateOutput vec no =>
    simp only [Codegen.exec, stepDim] at h
    split_ifs at h
    · split at h <;> cases h
      rfl
    · cases h; rfl
  | constGuard => exact hp.elim
  | retVal => exact hp.elim
  | retTuple => exact hp.elim
  | retOut => exact hp.elim
  | storeComp e =>
    simp only [Codegen.exec, stepDim] at h
    obtain ⟨_, -, h⟩ := of_bind h
    obtain ⟨_, -, h⟩ := of_bind h
    obtain ⟨_, -, h⟩ := of_bind h
    cases h; rfl
  | storeCompOrders e =>
    simp only [Codegen.exec, stepDim] at h
    obtain ⟨_, -, h⟩ := of_bind h
    obtain ⟨_, -, h⟩ := of_bind h
    obtain ⟨_, -, h⟩ := of_bind h
    cases h; rfl
  | storeVal j n =>
    simp only [Codegen.exec, stepDim] at h
    obtain ⟨_, -, h⟩ := of_bind h
    obtain ⟨_, -, h⟩ := of_bind h
    obtain ⟨_, -, h⟩ := of_bind h
    cases h; rfl
  | storeScalar e =>
    simp only [Codegen.exec, stepDim] at h
    obtain ⟨_, -, h⟩ := of_bind h
    obtain ⟨_, -, h⟩ := of_bind h
    obtain ⟨_, -, h⟩ := of_bind h
    cases h; rfl
  | _ =>
    obtain ⟨_, -, h⟩ := of_bind h
    cases h; rfl

def noCont : Stmt → Prop
  | .constGuard _ .zeroContinue => False
  | _ => True

def noRet : Stmt → Prop
  | .constGuard _ .zeroContinue => True
  | st => plain st

theorem exec_noCont {st : Stmt} (hp : noCont st) {r : State K × Flow K} (h : Codegen.exec c st s = .ok r) : r.2 ≠ .cont := by
  cases st with
  | constGuard i g =>
    simp only [Codegen.exec, stepDim] at h
    obtain ⟨o, -, h⟩ := of_bind h
    split_ifs at h
    · cases g with
      | zeroReturn =>
        obtain ⟨_, -, h⟩ := of_bind h
        obtain ⟨_, -, h⟩ := of_bind h
        cases h; simp
      | zeroFall =>
        obtain ⟨_, -, h⟩ := of_bind h
        obtain ⟨_, -, h⟩ := of_bind h
        cases h; simp
      | returnZero => cases h; simp
      | zeroContinue => exact hp.elim
    · cases h; simp
  | retVal e => obtain ⟨_, -, h⟩ := of_bind h; cases h; simp
  | retTuple vs => obtain ⟨_, -, h⟩ := of_bind h; cases h; simp
  | retOut => obtain ⟨_, -, h⟩ := of_bind h; cases h; simp
  | _ => have := exec_plain (by trivial) h; rw [this]; simp

theorem exec_noRet {st : Stmt} (hp : noRet st) {r : State K × Flow K} (h : Codegen.exec c st s = .ok r) (w : RetVal K) : r.2 ≠ .ret w := by
  cases st with
  | constGuard i g =>
    cases g with
    | zeroContinue =>
      simp only [Codegen.exec, stepDim] at h
      obtain ⟨o, -, h⟩ := of_bind h
      split_ifs at h
      · obtain ⟨_, -, h⟩ := of_bind h
        obtain ⟨_, -, h⟩ := of_bind h
        cases h; simp
      · cases h; simp
    | _ => exact hp.elim
  | retVal => exact hp.elim
  | retTuple => exact hp.elim
  | retOut => exact hp.elim
  | _ => have := exec_plain (by trivial) h; rw [this]; simp

theorem run_flow {P : Flow K → Prop} (h0 : P .next) {ss : List Stmt} (hs : ∀ st ∈ ss, ∀ s r, Codegen.exec c st s = .ok r → P r.2) {s : State K}
    {r : State K × Flow K} (h : run c ss s = .ok r) : P r.2 := by
  induction ss generalizing s with
  | nil => cases h; exact h0
  | cons st ss ih =>
    simp only [run] at h
    obtain ⟨q, h1, h2⟩ := of_bind h
    have hq := hs st (by simp) s q h1
    obtain ⟨q, fl⟩ := q
    cases fl with
    | next => exact ih (fun t ht => hs t (by simp [ht])) h2
    | cont => cases h2; exact hq
    | ret w => cases h2; exact hq

/-! ### Points one after another -/

theorem Rel.row {pv : Val K} {c : Ctx K} (h : Rel cfg pv c env s) {c' : Ctx K} {m : ℕ} (h1 : c'.grid = c.grid) (h2 : c'.C = c.C)
    (h3 : c'.npts = c.npts) (h4 : c'.pre = [m]) : Rel cfg pv c' (env.set (nameOf .nn) (.int m)) s where
  track k o hk := by
    rw [set_get]
    split_ifs with e
    · subst e; simp [PyParse.track, h4] at hk; exact hk
    · apply h.track
      rw [← hk]
      cases k <;> simp only [PyParse.track, h1, h2, h3]
      exact absurd rfl e
  out := by rw [set_get, if_neg (by simp)]; exact h.out

/-- Forget the current point. -/
theorem Rel.unrow {pv : Val K} {c c' : Ctx K} (h : Rel cfg pv c env s) (h1 : c'.grid = c.grid) (h2 : c'.C = c.C)
    (h3 : c'.npts = c.npts) (h4 : c'.pre = []) : Rel cfg pv c' env s where
  track k o hk := by
    apply h.track
    rw [← hk]
    cases k <;> simp only [PyParse.track, h1, h2, h3]
    simp [PyParse.track, h4] at hk
  out := h.out

theorem sim_rows (hK : LawfulLit K) (hctx : ∀ g, ctx (nameOf (.glob g)) = some (globVal g)) {body : List Stmt} {G : List (GridDim K)} {C : NdArray K}
    {npts : ℕ} (hb : ∀ st ∈ body, noRet st) (rows : List (List K)) (nn : ℕ) (hf : ∀ j x, rows[j]? = some x → ∀ st ∈ body,
      stFits cfg pv { grid := G, C := C, x := x, pre := [nn + j], npts := npts } st) (env : Env K) (s : State K)
    (h : Rel cfg pv { grid := G, C := C, x := [], pre := [], npts := npts } env s) :
    Sim (runRows G C npts body nn rows s)
      (forLoop (exec ctx (stmtsA cfg body) none) (nameOf .nn) ((List.range' nn rows.length).map Int.ofNat) env)
      fun s' r => r.2 = .next ∧ Rel cfg pv { grid := G, C := C, x := [], pre := [], npts := npts } r.1 s' := by
  induction rows generalizing nn env s with
  | nil => exact .ok ⟨rfl, h⟩
  | cons x rows ih =>
    simp only [runRows, List.length_cons, List.range'_succ, List.map_cons, forLoop]
    have h1 : Rel cfg pv { grid := G, C := C, x := x, pre := [nn], npts := npts } (env.set (nameOf .nn) (.int (Int.ofNat nn))) s :=
      h.row rfl rfl rfl rfl
    refine (sim_run hK hctx body (hf 0 x rfl) _ s h1).bind' fun r q hr hq => ?_
    have hn : ∀ w, r.2 ≠ .ret w := run_flow (P := fun fl => ∀ w, fl ≠ .ret w) (by simp) (fun st hst s r h => exec_noRet (hb st hst) h) hr
    obtain ⟨r, fl⟩ := r
    obtain ⟨q, ex⟩ := q
    obtain ⟨h2, h3⟩ := hq
    have hrest := ih (nn + 1) (fun j y hy st hst => by
      have := hf (j + 1) y (by simpa using hy) st hst
      rwa [show nn + (j + 1) = nn + 1 + j by omega] at this) q r (h2.unrow rfl rfl rfl rfl)
    cases fl with
    | next =>
      obtain rfl : ex = .next := h3
      exact hrest
    | cont =>
      obtain rfl : ex = .cont := h3
      exact hrest
    | ret w => exact absurd rfl (hn w)

/-! ### Calls -/

/-- Local variables when the body begins. -/
def env0 (g cc p o : Val K) : Env K :=
  ((((((Env.set (fun _ => none) (nameOf .grid) g).set (nameOf .C) cc).set (nameOf .points) p).set (nameOf .out) o).set
    (nameOf .kk) (.int 1)).set (nameOf .diff) (.str ['N', 'o', 'n', 'e'])).set (nameOf .mode) (.str ['l', 'i', 'n', 'e', 'a', 'r'])

theorem call_program (ctx : Env K) (cfg : Cfg) (p : Program) (g cc pt o : Val K) :
    callFunction ctx (programA cfg p) [g, cc, pt, o] = exec ctx (bodyA cfg p) none (env0 g cc pt o) >>= fun r => match r.2 with
      | .ret v => pure (v, r.1)
      | .next => pure (.none, r.1)
      | .cont => throw .syntaxErr := rfl

def encOut : Option (NdArray K) → Val K
  | none => .none
  | some A => .arr A

theorem rel0 {G : List (GridDim K)} {C : NdArray K} {x : List K} {npts : ℕ} {out : Option (NdArray K)} (hv : cfg.vectorized = false)
    (hd : ∀ A, out = some A → A.shape.length = outDims cfg ∨ outDims cfg = 0) :
    Rel cfg pv { grid := G, C := C, x := x, pre := [], npts := npts } (env0 (.tup (G.map encAxis)) (.arr C) pv (encOut out)) { out := out } where
  track k o hk := by
    cases k with
    | dim i k => simp [PyParse.track] at hk; subst hk; cases k <;> simp [env0, set_get, dimLook]
    | _ => simp [PyParse.track, hv, valLook] at hk <;> subst hk <;> simp [env0, set_get]
  out := by
    cases out with
    | none => simp [OutRel, env0, set_get, encOut]
    | some A => exact ⟨A, by simp [env0, set_get, encOut], same_refl A, hd A rfl⟩

theorem rel1 {G : List (GridDim K)} {C : NdArray K} {x : List K} {npts : ℕ} {out : Option (NdArray K)} (hv : cfg.vectorized = true)
    (hd : ∀ A, out = some A → A.shape.length = outDims cfg ∨ outDims cfg = 0) :
    Rel cfg pv { grid := G, C := C, x := x, pre := [], npts := npts }
      ((env0 (.tup (G.map encAxis)) (.arr C) pv (encOut out)).set (nameOf .npts) (.int npts)) { out := out } where
  track k o hk := by
    cases k with
    | dim i k => simp [PyParse.track] at hk; subst hk; cases k <;> simp [env0, set_get, dimLook]
    | _ => simp [PyParse.track, hv, valLook] at hk <;> subst hk <;> simp [env0, set_get]
  out := by
    cases out with
    | none => simp [OutRel, env0, set_get, encOut]
    | some A => exact ⟨A, by simp [env0, set_get, encOut], same_refl A, hd A rfl⟩

/-- What a call leaves behind. -/
def Result (o : Outcome K) (r : Val K × Env K) : Prop :=
  RetRel o.ret r.1 ∧ ∀ A, o.out = some A → ∃ A', r.2 (nameOf .out) = some (.arr A') ∧ A.Same A'

theorem append_nil (b : Block) : b.append .nil = b := by
  induction b with
  | nil => rfl
  | simple ss r ih => simp [Block.append, ih]
  | block h b r _ ih => simp [Block.append, ih]

/-- One point. -/
theorem sim_point (hK : LawfulLit K) (hctx : ∀ g, ctx (nameOf (.glob g)) = some (globVal g)) {p : Program} {G : List (GridDim K)} {C : NdArray K}
    {x : List K} {out : Option (NdArray K)} (hv : cfg.vectorized = false) (hro : p.retOut = false)
    (hd : ∀ A, out = some A → A.shape.length = outDims cfg ∨ outDims cfg = 0) (hc : ∀ st ∈ p.prelude, noCont st)
    (hf : ∀ st ∈ p.prelude, stFits cfg pv { grid := G, C := C, x := x, pre := [], npts := 0 } st) :
    Sim (do
        let r ← run { grid := G, C := C, x := x, pre := [], npts := 0 } p.prelude { out := out }
        pure { ret := match r.2 with
                      | .ret v => v
                      | _ => .none
               out := if out.isSome then r.1.out else none })
      (callFunction ctx (programA cfg p) [.tup (G.map encAxis), .arr C, pv, encOut out]) Result := by
  rw [call_program]
  have hb : exec ctx (bodyA cfg p) none (env0 (.tup (G.map encAxis)) (.arr C) pv (encOut out)) =
      exec ctx (stmtsA cfg p.prelude) none (env0 (.tup (G.map encAxis)) (.arr C) pv (encOut out)) := by
    simp only [bodyA, hv, hro, Bool.false_eq_true, if_false, Block.join]
    show exec ctx (.simple [.expr (.str docText)] ((stmtsA cfg p.prelude).append .nil)) none _ = _
    rw [append_nil]
    rfl
  rw [hb]
  refine (sim_run hK hctx p.prelude hf _ _ (rel0 hv hd)).bind' fun r q hr hq => ?_
  have hn : r.2 ≠ .cont := run_flow (P := fun fl => fl ≠ .cont) (by simp) (fun st hst s r h => exec_noCont (hc st hst) h) hr
  obtain ⟨r, fl⟩ := r
  obtain ⟨q, ex⟩ := q
  obtain ⟨h1, h2⟩ := hq
  have ho : ∀ A, (if out.isSome then r.out else none) = some A → ∃ A', q (nameOf .out) = some (.arr A') ∧ A.Same A' := by
    intro A hA
    split_ifs at hA
    have := h1.out
    dsimp only at this
    rw [hA] at this
    obtain ⟨A', e1, e2, -⟩ := this
    exact ⟨A', e1, e2⟩
  cases fl with
  | next =>
    obtain rfl : ex = .next := h2
    exact .ok ⟨rfl, ho⟩
  | cont => exact absurd rfl hn
  | ret w =>
    obtain ⟨w', rfl, h3⟩ := h2
    exact .ok ⟨h3, ho⟩

/-- Several points. -/
theorem sim_points (hK : LawfulLit K) (hctx : ∀ g, ctx (nameOf (.glob g)) = some (globVal g)) {p : Program} {G : List (GridDim K)} {C : NdArray K}
    {rows : List (List K)} {out : Option (NdArray K)} {P : NdArray K} {w : ℕ} (hv : cfg.vectorized = true) (hP : P.shape = [rows.length, w])
    (hd : ∀ A, out = some A → A.shape.length = outDims cfg ∨ outDims cfg = 0) (hc : ∀ st ∈ p.prelude, plain st) (hb : ∀ st ∈ p.body, noRet st)
    (hf : ∀ st ∈ p.prelude, stFits cfg (.arr P) { grid := G, C := C, x := [], pre := [], npts := rows.length } st)
    (hf' : ∀ j x, rows[j]? = some x → ∀ st ∈ p.body, stFits cfg (.arr P) { grid := G, C := C, x := x, pre := [j], npts := rows.length } st) :
    Sim (do
        let r ← run { grid := G, C := C, x := [], pre := [], npts := rows.length } p.prelude { out := out }
        let s ← runRows G C rows.length p.body 0 rows r.1
        if p.retOut then do
          let A ← s.getOut
          pure { ret := .array A, out := none }
        else pure { ret := .none, out := s.out })
      (callFunction ctx (programA cfg p) [.tup (G.map encAxis), .arr C, .arr P, encOut out]) Result := by
  rw [call_program]
  set e0 := env0 (.tup (G.map encAxis)) (.arr C) (.arr P) (encOut out) with he0
  have hN : eval ctx e0 (at1 (.attr (v .points) shapeName) (.int 0)) = .ok (.int rows.length) := by
    refine eval_at_tup (vs := [.int rows.length, .int w]) (n := 0) ?_ (eval_int 0) rfl
    simp [eval, lookup, he0, env0, set_get, getAttr, hP]
  set loop : Block := .block (.forH (nameOf .nn) (.call (gl .range) (L [v .npts]))) (stmtsA cfg p.body) .nil with hloop
  set last : Block := if p.retOut then lines [[.ret (v .out)]] else .nil with hlast
  have hsl : starts last := by rw [hlast]; split_ifs <;> trivial
  have hbody : exec ctx (bodyA cfg p) none e0 =
      exec ctx (stmtsA cfg p.prelude) none (e0.set (nameOf .npts) (.int rows.length)) >>= andThen ctx (loop.append last) := by
    rw [← exec_append (by trivial)]
    simp only [bodyA, hv, if_true, Block.join]
    show exec ctx (.simple [.expr (.str docText)] (.simple [set .npts (at1 (.attr (v .points) shapeName) (.int 0))]
      ((stmtsA cfg p.prelude).append (loop.append (last.append .nil))))) none _ = _
    rw [append_nil]
    have : ∀ b : Block, exec ctx (.simple [.expr (.str docText)] (.simple [set .npts (at1 (.attr (v .points) shapeName) (.int 0))] b)) none e0
        = exec ctx b none (e0.set (nameOf .npts) (.int rows.length)) := by
      intro b
      rw [exec]
      show exec ctx (.simple [set .npts (at1 (.attr (v .points) shapeName) (.int 0))] b) none e0 = _
      rw [exec, execSimples_set, hN]
      rfl
    exact this _
  rw [hbody, bind_assoc]
  refine (sim_run hK hctx p.prelude hf _ _ (rel1 hv hd)).bind' fun r q hr hq => ?_
  have hn : r.2 = .next := run_flow (P := fun fl => fl = .next) rfl (fun st hst s r h => exec_plain (hc st hst) h) hr
  obtain ⟨r, fl⟩ := r
  obtain ⟨q, ex⟩ := q
  obtain ⟨h1, h2⟩ := hq
  obtain rfl : fl = .next := hn
  obtain rfl : ex = .next := h2
  have hq : q (nameOf .npts) = some (.int rows.length) := h1.track .npts _ (by simp [PyParse.track, hv])
  have hrange : eval ctx q (.call (gl .range) (L [v .npts])) = .ok (.range rows.length) := by
    rw [eval_call1 (eval_glob hctx (h1.glob .range)) (eval_key hq)]; rfl
  have hl : exec ctx loop none q = forLoop (exec ctx (stmtsA cfg p.body) none) (nameOf .nn) ((List.range' 0 rows.length).map Int.ofNat) q := by
    simp only [hloop, exec, hrange, ok_bind, iterate, pure_eq_ok, Int.toNat_natCast, List.range_eq_range']
    generalize forLoop _ _ _ _ = f
    rcases f with e | ⟨r, _ | _ | _⟩ <;> rfl
  simp only [andThen]
  rw [exec_append hsl, hl, bind_assoc]
  refine (sim_rows hK hctx hb rows 0 (by simpa using hf') q r h1).bind fun s' t ht => ?_
  obtain ⟨t, ex⟩ := t
  obtain ⟨rfl, h3⟩ := ht
  simp only [andThen]
  have ho := h3.out
  rw [hlast]
  rcases hro : p.retOut with _ | _
  · simp only [Bool.false_eq_true, if_false, exec, pure_eq_ok, ok_bind]
    refine .ok ⟨rfl, fun A hA => ?_⟩
    dsimp only at hA
    rw [hA] at ho
    obtain ⟨A', e1, e2, -⟩ := ho
    exact ⟨A', e1, e2⟩
  · simp only [if_true]
    rcases hA : s'.out with _ | A
    · simp only [State.getOut, hA]; exact .fail (by simp [RunTime])
    rw [hA] at ho
    obtain ⟨A', e1, e2, -⟩ := ho
    simp only [State.getOut, hA, pure_eq_ok, ok_bind, exec_ret, eval_key e1]
    exact .ok ⟨⟨A', rfl, e2⟩, by simp⟩

end Interp.PyParse
