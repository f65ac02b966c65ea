import Verif.Proofs.SrcView

/-!
# Executing source texts: variables with known values
-/

namespace Interp.Spec.PySrc
open Interp

set_option linter.unusedSectionVars false

variable {K : Type}

/-- Variables and their values (`none`: not assigned). -/
abbrev Vars (K : Type) := List (String × Option (Val K))

/-- The variables have these values. -/
def Binds (V : Vars K) (env : Env K) : Prop := ∀ p ∈ V, env p.1 = p.2

theorem Binds.set {V : Vars K} {env : Env K} {x : String} {v : Val K} (h : Binds V env) (hx : ∀ p ∈ V, p.1 ≠ x) :
    Binds V (env.set x v) := fun p hp => by rw [set_apply, if_neg (hx p hp)]; exact h p hp
theorem Binds.cons {V : Vars K} {env : Env K} {x : String} {v : Option (Val K)} (h : Binds V env) (hx : env x = v) :
    Binds ((x, v) :: V) env := by
  intro p hp
  rcases List.mem_cons.mp hp with rfl | hp
  · exact hx
  · exact h p hp
theorem Binds.push {V : Vars K} {env : Env K} {x : String} {v : Val K} (h : Binds V env) (hx : ∀ p ∈ V, p.1 ≠ x) :
    Binds ((x, some v) :: V) (env.set x v) := (h.set hx).cons (by rw [set_apply, if_pos rfl])
theorem Binds.tail {V : Vars K} {env : Env K} {p : String × Option (Val K)} (h : Binds (p :: V) env) : Binds V env :=
  fun q hq => h q (List.mem_cons_of_mem _ hq)

/-- The values of the variables, as equations. -/
syntax "bindings " ident : tactic
macro_rules
  | `(tactic| bindings $h) => `(tactic| simp -implicitDefEqProofs only [Binds, List.forall_mem_cons, List.not_mem_nil,
      false_implies, implies_true, and_true] at $h:ident)

/-- Values of variables after assignments. -/
syntax "bound" (" [" Lean.Parser.Tactic.simpLemma,* "]")? : tactic
macro_rules
  | `(tactic| bound) => `(tactic| simp -implicitDefEqProofs only [Binds, List.forall_mem_cons, List.not_mem_nil, set_apply, reduceIte,
      String.reduceEq, false_implies, implies_true, and_self, and_true])
  | `(tactic| bound [$ls,*]) => `(tactic| simp -implicitDefEqProofs only [Binds, List.forall_mem_cons, List.not_mem_nil, set_apply, reduceIte,
      String.reduceEq, false_implies, implies_true, and_self, and_true, $ls,*])

/-- No variable of a list has this name. -/
syntax "fresh" : tactic
macro_rules
  | `(tactic| fresh) => `(tactic| simp -implicitDefEqProofs only [List.forall_mem_cons, List.not_mem_nil, false_implies, implies_true,
      ne_eq, String.reduceEq, not_false_eq_true, and_self, and_true, forall_const])

variable [Add K] [Sub K] [Mul K] [Div K] [Neg K] [Zero K] [One K] [NatCast K] [IntCast K]
  [LT K] [DecidableLT K] [LE K] [DecidableLE K] [BEq K] [IntFloor K] [Interp.Smolyak.Trig K]

/-- The variables and the heap belong to the state `s`. -/
def At {S : Type} (V : S → Vars K) (H : S → Heap K → Prop) (s : S) (env : Env K) (h : Heap K) : Prop :=
  Binds (V s) env ∧ H s h

/-- A loop of the text and a loop of the model. -/
theorem for_flow {α β S : Type} {W : World K} {x : String} {it : Ex} {body rest : Block} {V : S → Vars K} {H : S → Heap K → Prop}
    {l : List α} {toVal : α → Val K} {v : Val K} {f : α → S → Py S} {g : S → Py β} {Q : β → Out K × Heap K → Prop}
    {s : S} {env : Env K} {h : Heap K}
    (hit : eval W env it h = pure (v, h)) (hv : iterate v = pure (l.map toVal)) (hx : ∀ s, ∀ p ∈ V s, p.1 ≠ x)
    (h0 : At V H s env h)
    (hbody : ∀ a ∈ l, ∀ s env h, At (fun s => (x, some (toVal a)) :: V s) H s env h →
      Sim (f a s) (exec W body env h) (Next (At V H)))
    (hrest : ∀ s env h, At V H s env h → Sim (g s) (exec W rest env h) Q) :
    Sim (pyFor l f s >>= g) (exec W (.for (.name x) it body rest) env h) Q := by
  rw [exec_for, step hit, hv]
  pysimp
  rw [bind_run]
  refine Sim.bind (Q := Next (At V H)) ?_ ?_
  · refine forLoop_sim (toVal := toVal) ?_ h0
    rintro a ha s env' h' hs
    exact hbody a ha s _ h' ⟨hs.1.push (hx s), hs.2⟩
  · rintro s' ⟨o, h'⟩ ⟨env', rfl, hs⟩
    exact hrest s' env' h' hs

theorem at_end {S : Type} {W : World K} {I : S → Env K → Heap K → Prop} {s : S} {env : Env K} {h : Heap K} (hs : I s env h) :
    Sim (pure s : Py S) (exec W .nil env h) (Next I) := Sim.pure ⟨env, rfl, hs⟩

/-- A loop at the end of a block. -/
theorem for_last {α S : Type} {W : World K} {x : String} {it : Ex} {body : Block} {V : S → Vars K} {H : S → Heap K → Prop}
    {l : List α} {toVal : α → Val K} {v : Val K} {f : α → S → Py S} {I : S → Env K → Heap K → Prop}
    {s : S} {env : Env K} {h : Heap K}
    (hit : eval W env it h = pure (v, h)) (hv : iterate v = pure (l.map toVal)) (hx : ∀ s, ∀ p ∈ V s, p.1 ≠ x)
    (h0 : At V H s env h)
    (hbody : ∀ a ∈ l, ∀ s env h, At (fun s => (x, some (toVal a)) :: V s) H s env h →
      Sim (f a s) (exec W body env h) (Next (At V H)))
    (hend : ∀ s env h, At V H s env h → I s env h) :
    Sim (pyFor l f s) (exec W (.for (.name x) it body .nil) env h) (Next I) := by
  rw [← bind_pure (pyFor l f s)]
  exact for_flow hit hv hx h0 hbody fun s env h hs => at_end (hend s env h hs)

theorem pyFor_pure {α S : Type} (l : List α) (f : α → S → S) (s : S) :
    pyFor l (fun a s => pure (f a s)) s = pure (l.foldl (fun s a => f a s) s) := by
  induction l generalizing s with
  | nil => rfl
  | cons a l ih => exact ih (f a s)

end Interp.Spec.PySrc
