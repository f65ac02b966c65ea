import Verif.Proofs.PyProgram
import Verif.Proofs.ExceptLemmas
import Verif.Model.Codegen
import Verif.Spec.PyEval

/-!
# Execution of the syntax trees against execution of the statements: preparation
-/

namespace Interp.PyParse
open Interp.Spec.PyLang
open Interp.Codegen hiding exec

set_option linter.unusedSectionVars false

variable {K : Type} [Add K] [Sub K] [Mul K] [Div K] [Neg K] [Zero K] [One K] [NatCast K]
  [IntCast K] [LT K] [DecidableLT K] [BEq K] [IntFloor K]

/-! ### Simulation -/

/-- Errors that occur while compiled code runs. -/
def RunTime (e : Err) : Prop := e = .zeroDivision ∨ e = .outOfBounds

/-- `p` does what `m` does, unless `m` reports something else than a run-time error. -/
def Sim {α β : Type} (m : Py α) (p : Py β) (R : α → β → Prop) : Prop :=
  (∀ a, m = .ok a → ∃ b, p = .ok b ∧ R a b) ∧ ∀ e, RunTime e → m = .error e → p = .error e

section
variable {α β γ δ : Type}

theorem Sim.ok {a : α} {b : β} {R : α → β → Prop} (h : R a b) : Sim (.ok a) (.ok b) R :=
  ⟨fun _ h' => by cases h'; exact ⟨b, rfl, h⟩, nofun⟩

theorem Sim.fail {e : Err} {p : Py β} {R : α → β → Prop} (h : ¬ RunTime e) : Sim (.error e) p R :=
  ⟨nofun, fun _ h1 h2 => by cases h2; exact absurd h1 h⟩

theorem Sim.err {e : Err} {R : α → β → Prop} : Sim (.error e) (.error e) R :=
  ⟨nofun, fun _ _ h2 => by cases h2; rfl⟩

theorem Sim.bind {m : Py α} {p : Py β} {R : α → β → Prop} {f : α → Py γ} {g : β → Py δ} {S : γ → δ → Prop}
    (h : Sim m p R) (h' : ∀ a b, R a b → Sim (f a) (g b) S) : Sim (m >>= f) (p >>= g) S := by
  rcases m with e | a
  · by_cases he : RunTime e
    · rw [h.2 e he rfl]; exact .err
    · exact .fail he
  · obtain ⟨b, rfl, hr⟩ := h.1 a rfl
    exact h' a b hr

theorem Sim.mono {m : Py α} {p : Py β} {R S : α → β → Prop} (h : Sim m p R) (h' : ∀ a b, R a b → S a b) : Sim m p S :=
  ⟨fun a ha => let ⟨b, hb, hr⟩ := h.1 a ha; ⟨b, hb, h' a b hr⟩, h.2⟩

theorem Sim.refl (m : Py α) : Sim m m (· = ·) := by
  rcases m with e | a
  · exact .err
  · exact .ok rfl

/-- The same computation first. -/
theorem Sim.same {m : Py α} {f : α → Py γ} {g : α → Py δ} {S : γ → δ → Prop} (h : ∀ a, Sim (f a) (g a) S) :
    Sim (m >>= f) (m >>= g) S := (Sim.refl m).bind fun a _ e => e ▸ h a

theorem Sim.var {n : String} {o : Option α} {f : α → Py γ} {p : Py δ} {S : γ → δ → Prop} (h : ∀ a, o = some a → Sim (f a) p S) :
    Sim (var n o >>= f) p S := by
  cases o with
  | none => exact .fail (by simp [RunTime])
  | some a => exact h a rfl

end

/-! ### Arithmetic of literals -/

theorem lit0 (h : LawfulLit K) : ((0 : ℤ) : K) = 0 := by rw [show (0 : ℤ) = ((0 : ℕ) : ℤ) from rfl, h.int, h.zero]
theorem lit1 (h : LawfulLit K) : ((1 : ℤ) : K) = 1 := by rw [show (1 : ℤ) = ((1 : ℕ) : ℤ) from rfl, h.int, h.one]
theorem lit2 (h : LawfulLit K) : ((2 : ℤ) : K) = 2 := by rw [show (2 : ℤ) = ((2 : ℕ) : ℤ) from rfl, h.int]; rfl
theorem lit3 (h : LawfulLit K) : ((3 : ℤ) : K) = 3 := by rw [show (3 : ℤ) = ((3 : ℕ) : ℤ) from rfl, h.int]; rfl

/-! ### Encodings -/

def vec (l : List K) : NdArray K := ⟨[l.length], fun idx => match idx with
  | [i] => l.getD i 0
  | _ => 0⟩

def encAxis : GridDim K → Val K
  | .uniform a b n => .tup [.flt a, .flt b, .int n]
  | .array gc => .arr (vec gc)

def mat (f : ℕ → ℕ → K) : NdArray K := ⟨[4, 4], fun idx => match idx with
  | [j, m] => f j m
  | _ => 0⟩

def globVal : Glob → Val K
  | .none => .none
  | .max => .fn .max
  | .min => .fn .min
  | .int => .fn .int
  | .floor => .fn .floor
  | .range => .fn .range
  | .zeros => .fn .zeros
  | .np => .numpy
  | .Cd => .arr (mat Ad)
  | .dCd => .arr (mat dAd)
  | .allocateOutput => .fn .allocateOutput

def dimLook (v : DimVars K) : DKey → Option (Val K)
  | .a => v.a.map .flt
  | .b => v.b.map .flt
  | .n => v.n.map .int
  | .delta => v.delta.map .flt
  | .gc => v.gc.map fun l => .arr (vec l)
  | .N => v.N.map .int
  | .x => v.x.map .flt
  | .idx => v.idx.map .int
  | .lam => v.lam.map .flt
  | .phi l j => (v.phi l j).map .flt

def valLook (vals : List (ValName × K)) (n : ValName) : Option (Val K) :=
  (vals.find? (fun p => p.1 = n)).map fun p => .flt p.2

/-- The variables whose value is known. -/
def track (cfg : Cfg) (pv : Val K) (c : Ctx K) (s : State K) : Key → Option (Option (Val K))
  | .dim i k => some (dimLook (s.dims i) k)
  | .val n => some (valLook s.vals n)
  | .nVals => some (s.nVals.map fun m : ℕ => (Val.int (m : ℤ) : Val K))
  | .grid => some (some (.tup (c.grid.map encAxis)))
  | .C => some (some (.arr c.C))
  | .points => some (some pv)
  | .npts => some (if cfg.vectorized then some (.int c.npts) else none)
  | .nn => match c.pre with
    | [m] => some (some (.int m))
    | _ => none
  | .glob _ => some none
  | _ => none

/-- Number of dimensions of the output. -/
def outDims (cfg : Cfg) : ℕ :=
  (if cfg.vectorized then 1 else 0) + (if cfg.vectorValued then 1 else 0) + (if cfg.orders.isSome then 1 else 0)

def OutRel (cfg : Cfg) (o : Option (NdArray K)) (w : Option (Val K)) : Prop :=
  match o with
  | none => w = some .none
  | some A => ∃ A', w = some (.arr A') ∧ A.Same A' ∧ (A.shape.length = outDims cfg ∨ outDims cfg = 0)

structure Rel (cfg : Cfg) (pv : Val K) (c : Ctx K) (env : Env K) (s : State K) : Prop where
  track : ∀ k o, track cfg pv c s k = some o → env (nameOf k) = o
  out : OutRel cfg s.out (env (nameOf .out))

def RetRel : RetVal K → Val K → Prop
  | .none, w => w = .none
  | .scalar x, w => w = .flt x
  | .tuple xs, w => w = .tup (xs.map .flt)
  | .array A, w => ∃ A', w = .arr A' ∧ A.Same A'

def FlowRel : Flow K → Exit K → Prop
  | .next, e => e = .next
  | .cont, e => e = .cont
  | .ret r, e => ∃ w, e = .ret w ∧ RetRel r w

theorem set_get (env : Env K) (k k' : Key) (w : Val K) :
    (env.set (nameOf k) w) (nameOf k') = if k' = k then some w else env (nameOf k') := by
  simp only [Env.set, nameOf_inj]

variable {cfg : Cfg} {pv : Val K} {c : Ctx K} {env : Env K} {s : State K} {ctx : Env K}

theorem Rel.dim (h : Rel cfg pv c env s) (i : ℕ) (k : DKey) : env (nameOf (.dim i k)) = dimLook (s.dims i) k :=
  h.track (.dim i k) _ rfl
theorem Rel.grid (h : Rel cfg pv c env s) : env (nameOf .grid) = some (.tup (c.grid.map encAxis)) := h.track .grid _ rfl
theorem Rel.C (h : Rel cfg pv c env s) : env (nameOf .C) = some (.arr c.C) := h.track .C _ rfl
theorem Rel.points (h : Rel cfg pv c env s) : env (nameOf .points) = some pv := h.track .points _ rfl
theorem Rel.glob (h : Rel cfg pv c env s) (g : Glob) : env (nameOf (.glob g)) = none := h.track (.glob g) _ rfl
theorem Rel.nVals (h : Rel cfg pv c env s) : env (nameOf .nVals) = s.nVals.map (fun m : ℕ => (Val.int (m : ℤ) : Val K)) := h.track .nVals _ rfl
theorem Rel.val (h : Rel cfg pv c env s) (n : ValName) : env (nameOf (.val n)) = valLook s.vals n := h.track (.val n) _ rfl
theorem Rel.nn (h : Rel cfg pv c env s) {m : ℕ} (hp : c.pre = [m]) : env (nameOf .nn) = some (.int m) :=
  h.track .nn _ (by simp [PyParse.track, hp])

/-- Scratch variables. -/
def Key.free : Key → Prop
  | .u _ | .mu _ _ | .valTmp | .ix => True
  | _ => False

theorem Rel.setDim {env' : Env K} {i : ℕ} {v' : DimVars K} (h : Rel cfg pv c env s)
    (h1 : ∀ k, env' (nameOf (.dim i k)) = dimLook v' k)
    (h2 : ∀ k : Key, ¬ k.free → (∀ k', k ≠ .dim i k') → env' (nameOf k) = env (nameOf k)) : Rel cfg pv c env' (s.setDim i v') where
  track k o hk := by
    by_cases hd : ∃ k', k = .dim i k'
    · obtain ⟨k', rfl⟩ := hd
      rw [h1]
      simpa [PyParse.track, State.setDim] using hk
    · have hf : ¬ k.free := by
        intro hf; cases k <;> simp [Key.free] at hf <;> simp [PyParse.track] at hk
      rw [h2 k hf fun k' e => hd ⟨k', e⟩]
      apply h.track
      rw [← hk]
      cases k <;> simp only [PyParse.track, State.setDim]
      rename_i j k
      rw [if_neg]
      rintro rfl
      exact hd ⟨k, rfl⟩
  out := by
    rw [h2 .out (by simp [Key.free]) (by simp)]
    exact h.out

theorem Rel.free {env' : Env K} (h : Rel cfg pv c env s)
    (h2 : ∀ k : Key, ¬ k.free → env' (nameOf k) = env (nameOf k)) : Rel cfg pv c env' s where
  track k o hk := by
    have hf : ¬ k.free := by
      intro hf; cases k <;> simp [Key.free] at hf <;> simp [PyParse.track] at hk
    rw [h2 k hf]
    exact h.track k o hk
  out := by rw [h2 .out (by simp [Key.free])]; exact h.out

theorem Rel.setFree (h : Rel cfg pv c env s) {k : Key} (hk : k.free) (w : Val K) : Rel cfg pv c (env.set (nameOf k) w) s :=
  h.free fun k' hk' => by rw [set_get, if_neg]; rintro rfl; exact hk' hk

theorem Rel.setNVals (h : Rel cfg pv c env s) (m : ℕ) : Rel cfg pv c (env.set (nameOf .nVals) (.int m)) { s with nVals := some m } where
  track k o hk := by
    rw [set_get]
    split_ifs with e
    · subst e; simpa [PyParse.track] using hk
    · apply h.track
      rw [← hk]
      cases k <;> simp only [PyParse.track]
      exact absurd rfl e
  out := by rw [set_get, if_neg (by simp)]; exact h.out

theorem Rel.setOut (h : Rel cfg pv c env s) {A A' : NdArray K} (hs : A.Same A') (hd : A.shape.length = outDims cfg ∨ outDims cfg = 0) :
    Rel cfg pv c (env.set (nameOf .out) (.arr A')) { s with out := some A } where
  track k o hk := by
    rw [set_get, if_neg (by rintro rfl; simp [PyParse.track] at hk)]
    exact h.track k o hk
  out := by rw [set_get, if_pos rfl]; exact ⟨A', rfl, hs, hd⟩

theorem Rel.setVal (h : Rel cfg pv c env s) (n : ValName) (x : K) :
    Rel cfg pv c (env.set (nameOf (.val n)) (.flt x)) { s with vals := (n, x) :: s.vals } where
  track k o hk := by
    rw [set_get]
    split_ifs with e
    · subst e; simpa [PyParse.track, valLook] using hk
    · apply h.track
      rw [← hk]
      cases k with
      | val n' =>
        have : ¬ n = n' := fun e' => e (by rw [e'])
        simp [PyParse.track, valLook, List.find?_cons, this]
      | _ => rfl
  out := by rw [set_get, if_neg (by simp)]; exact h.out

/-! ### Blocks one after another -/

/-- Does not begin with `elif` or `else`. -/
def starts : Block → Prop
  | .block (.elifH _) _ _ => False
  | .block .elseH _ _ => False
  | _ => True

theorem exec_starts {b : Block} (h : starts b) (ch ch' : Option Bool) (env : Env K) : exec ctx b ch env = exec ctx b ch' env := by
  cases b with
  | nil => rfl
  | simple ss r => rfl
  | block hd b r => cases hd <;> first | rfl | exact h.elim

/-- Continue with another block. -/
def andThen (ctx : Env K) (b : Block) (r : Env K × Exit K) : Py (Env K × Exit K) :=
  match r.2 with
  | .next => exec ctx b none r.1
  | e => pure (r.1, e)

theorem exec_append {b c : Block} (h : starts c) (ch : Option Bool) (env : Env K) :
    exec ctx (b.append c) ch env = exec ctx b ch env >>= andThen ctx c := by
  have hm : ∀ (r : Env K × Exit K) (q : Py (Env K × Exit K)), (match r.2 with
      | .next => q >>= andThen ctx c
      | e => pure (r.1, e)) = (match r.2 with
      | .next => q
      | e => pure (r.1, e)) >>= andThen ctx c := by
    rintro ⟨e, _ | _ | _⟩ q <;> rfl
  induction b generalizing ch env with
  | nil => exact exec_starts h ch none env
  | simple ss r ih =>
    simp only [Block.append, exec, bind_assoc, ih]
    congr 1; funext x; exact hm x _
  | block hd b r _ ih =>
    have hb : ∀ t : PExpr, (do
        let v ← eval ctx env t
        let t ← truth v
        if t then do
          let q ← exec ctx b none env
          match q.2 with
          | .next => exec ctx (r.append c) (some true) q.1
          | e => pure (q.1, e)
        else exec ctx (r.append c) (some false) env) = (do
        let v ← eval ctx env t
        let t ← truth v
        if t then do
          let q ← exec ctx b none env
          match q.2 with
          | .next => exec ctx r (some true) q.1
          | e => pure (q.1, e)
        else exec ctx r (some false) env) >>= andThen ctx c := by
      intro t
      simp only [bind_assoc, ih]
      congr 1; funext w; congr 1; funext u
      split_ifs
      · simp only [bind_assoc]
        congr 1; funext x; exact hm x _
      · rfl
    cases hd with
    | ifH t => simp only [Block.append, exec]; exact hb t
    | elifH t =>
      rcases ch with _ | _ | _
      · rfl
      · simp only [Block.append, exec]; exact hb t
      · simp only [Block.append, exec, ih]
    | elseH =>
      rcases ch with _ | _ | _
      · rfl
      · simp only [Block.append, exec, ih, bind_assoc]
        congr 1; funext x; exact hm x _
      · simp only [Block.append, exec, ih]
    | forH x e =>
      simp only [Block.append, exec, ih, bind_assoc]
      congr 1; funext w; congr 1; funext u; congr 1; funext x; exact hm x _
    | defH f ps => rfl

theorem starts_stmtA (st : Stmt) : starts (stmtA cfg st) := by
  cases st with
  | alloc kind => cases kind <;> trivial
  | blend1 l i => simp only [stmtA, blend1A]; split_ifs <;> trivial
  | _ => trivial

theorem starts_append {b c : Block} (hb : starts b) (hc : starts c) : starts (b.append c) := by
  cases b with
  | nil => exact hc
  | simple ss r => trivial
  | block hd b r => cases hd <;> first | trivial | exact hb.elim

theorem starts_stmtsA (ss : List Stmt) : starts (stmtsA cfg ss) := by
  induction ss with
  | nil => trivial
  | cons s ss ih => exact starts_append (starts_stmtA s) ih

end Interp.PyParse
