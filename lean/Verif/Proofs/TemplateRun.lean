import Verif.Model.CodegenText
import Verif.Spec.ProgramText
import Verif.Proofs.ExceptLemmas

/-!
# Running templates

What a piece of a parsed template prints: `Gives` (as text) and `GivesLines` (as lines of source).
-/

namespace Interp.Tempita

open Spec.Text

variable {V NS : Type}

@[simp] theorem tok_bind {α β : Type} (a : α) (f : α → Except TErr β) :
    (Except.ok a >>= f : Except TErr β) = f a := rfl

@[simp] theorem terror_bind {α β : Type} (e : TErr) (f : α → Except TErr β) :
    (Except.error e >>= f : Except TErr β) = Except.error e := rfl

@[simp] theorem tpure {α : Type} (a : α) : (pure a : Except TErr α) = Except.ok a := rfl

/-- Running nodes from any namespace satisfying `P` prints a text and leaves `P` true, or raises. -/
def Outcome (P : NS → Prop) (run : St V NS → St V NS × Stat) : Except TErr Str → Prop
  | .ok t => ∀ out ns inh, P ns → ∃ ns', P ns' ∧ run ⟨out, ns, inh⟩ = (⟨out ++ t, ns', inh⟩, .ok)
  | .error e => ∀ out ns inh, P ns → ∃ s', run ⟨out, ns, inh⟩ = (s', .err e)

abbrev Gives (W : World V NS) (P : NS → Prop) (n : Node) (r : Except TErr Str) : Prop :=
  Outcome P (n.run W) r

abbrev GivesL (W : World V NS) (P : NS → Prop) (n : Nodes) (r : Except TErr Str) : Prop :=
  Outcome P (n.run W) r

abbrev GivesP (W : World V NS) (P : NS → Prop) (n : Parts) (r : Except TErr Str) : Prop :=
  Outcome P (n.run W) r

variable {W : World V NS} {P : NS → Prop}

theorem Gives.text (t : Str) : Gives W P (.text t) (.ok t) :=
  fun _ ns _ h => ⟨ns, h, by simp [Node.run]⟩

theorem Gives.expr {pos : Pos} {e t : Str} (h : ∀ ns, P ns → evalExpr W e ns = .ok t) :
    Gives W P (.expr pos e) (.ok t) :=
  fun _ ns _ hp => ⟨ns, hp, by simp [Node.run, h ns hp]⟩

theorem Gives.expr_error {pos : Pos} {e : Str} {er : Err}
    (h : ∀ ns, P ns → evalExpr W e ns = .error er) :
    Gives W P (.expr pos e) (.error (.python er)) :=
  fun out ns inh hp => ⟨⟨out, ns, inh⟩, by simp [Node.run, h ns hp]⟩

theorem GivesL.nil : GivesL W P .nil (.ok []) := fun _ ns _ h => ⟨ns, h, by simp [Nodes.run]⟩

theorem GivesL.cons {n : Node} {ns : Nodes} {r u : Except TErr Str} (h : Gives W P n r)
    (h' : GivesL W P ns u) :
    GivesL W P (.cons n ns) (do let t ← r; let v ← u; pure (t ++ v)) := by
  cases r with
  | error e =>
    intro out m inh hp
    obtain ⟨s', hs⟩ := h out m inh hp
    exact ⟨s', by simp [Nodes.run, hs]⟩
  | ok t =>
    cases u with
    | error e =>
      intro out m inh hp
      obtain ⟨m', hp', hs⟩ := h out m inh hp
      obtain ⟨s', hs'⟩ := h' (out ++ t) m' inh hp'
      exact ⟨s', by simp [Nodes.run, hs, hs']⟩
    | ok v =>
      intro out m inh hp
      obtain ⟨m', hp', hs⟩ := h out m inh hp
      obtain ⟨m'', hp'', hs'⟩ := h' (out ++ t) m' inh hp'
      exact ⟨m'', hp'', by simp [Nodes.run, hs, hs']⟩

theorem GivesL.cons_ok {n : Node} {ns : Nodes} {t v : Str} (h : Gives W P n (.ok t))
    (h' : GivesL W P ns (.ok v)) : GivesL W P (.cons n ns) (.ok (t ++ v)) := GivesL.cons h h'

theorem GivesP.nil : GivesP W P .nil (.ok []) := fun _ ns _ h => ⟨ns, h, by simp [Parts.run]⟩

theorem GivesP.els {pos : Pos} {b : Nodes} {ps : Parts} {r : Except TErr Str} (h : GivesL W P b r) :
    GivesP W P (.cons none pos b ps) r := by
  cases r with
  | ok t => intro out m inh hp; simpa [Parts.run] using h out m inh hp
  | error e => intro out m inh hp; simpa [Parts.run] using h out m inh hp

theorem GivesP.yes {pos : Pos} {e : Str} {b : Nodes} {ps : Parts} {r : Except TErr Str}
    (he : ∀ ns, P ns → ∃ v, W.eval e ns = .ok v ∧ W.truth v = true) (h : GivesL W P b r) :
    GivesP W P (.cons (some e) pos b ps) r := by
  cases r with
  | ok t =>
    intro out m inh hp
    obtain ⟨v, hv, ht⟩ := he m hp
    simpa [Parts.run, hv, ht] using h out m inh hp
  | error e =>
    intro out m inh hp
    obtain ⟨v, hv, ht⟩ := he m hp
    simpa [Parts.run, hv, ht] using h out m inh hp

theorem GivesP.no {pos : Pos} {e : Str} {b : Nodes} {ps : Parts} {r : Except TErr Str}
    (he : ∀ ns, P ns → ∃ v, W.eval e ns = .ok v ∧ W.truth v = false) (h : GivesP W P ps r) :
    GivesP W P (.cons (some e) pos b ps) r := by
  cases r with
  | ok t =>
    intro out m inh hp
    obtain ⟨v, hv, ht⟩ := he m hp
    simpa [Parts.run, hv, ht] using h out m inh hp
  | error e =>
    intro out m inh hp
    obtain ⟨v, hv, ht⟩ := he m hp
    simpa [Parts.run, hv, ht] using h out m inh hp

theorem Gives.cond {pos : Pos} {ps : Parts} {r : Except TErr Str} (h : GivesP W P ps r) :
    Gives W P (.cond pos ps) r := by
  cases r with
  | ok t => intro out m inh hp; simpa [Node.run] using h out m inh hp
  | error e => intro out m inh hp; simpa [Node.run] using h out m inh hp

theorem forLoop_gives {α : Type} {vars : List Str} {body : Nodes} {f : α → Except TErr Str}
    {Q : α → NS → Prop} {φ : α → V} :
    ∀ (xs : List α) (_ : ∀ x ∈ xs, ∀ ns, P ns → ∃ ns', bindVars W vars (φ x) ns = .ok ns' ∧ Q x ns')
      (_ : ∀ x ∈ xs, ∀ ns, Q x ns → P ns) (_ : ∀ x ∈ xs, GivesL W (Q x) body (f x)),
      Outcome P (forLoop W vars (body.run W) (xs.map φ)) (xs.mapM f >>= fun ts => pure ts.flatten)
  | [], _, _, _ => fun out ns inh hp => ⟨ns, hp, by simp [forLoop]⟩
  | v :: vs, hb, hq, hg => by
    have ih := forLoop_gives vs (fun x hx => hb x (List.mem_cons_of_mem _ hx))
      (fun x hx => hq x (List.mem_cons_of_mem _ hx)) (fun x hx => hg x (List.mem_cons_of_mem _ hx))
    have h1 := hg v (List.mem_cons_self ..)
    rw [List.mapM_cons]
    cases hf : f v with
    | error e =>
      rw [hf] at h1
      intro out ns inh hp
      obtain ⟨ns', hn, hQ⟩ := hb v (List.mem_cons_self ..) ns hp
      obtain ⟨s', hs⟩ := h1 out ns' inh hQ
      exact ⟨s', by simp [forLoop, hn, hs]⟩
    | ok t =>
      rw [hf] at h1
      cases hm : vs.mapM f with
      | error e =>
        rw [hm] at ih
        intro out ns inh hp
        obtain ⟨ns', hn, hQ⟩ := hb v (List.mem_cons_self ..) ns hp
        obtain ⟨ns'', hQ', hs⟩ := h1 out ns' inh hQ
        obtain ⟨s', hs'⟩ := ih (out ++ t) ns'' inh (hq v (List.mem_cons_self ..) _ hQ')
        exact ⟨s', by simp [forLoop, hn, hs, hs']⟩
      | ok ts =>
        rw [hm] at ih
        intro out ns inh hp
        obtain ⟨ns', hn, hQ⟩ := hb v (List.mem_cons_self ..) ns hp
        obtain ⟨ns'', hQ', hs⟩ := h1 out ns' inh hQ
        obtain ⟨m, hpm, hs'⟩ := ih (out ++ t) ns'' inh (hq v (List.mem_cons_self ..) _ hQ')
        exact ⟨m, hpm, by simp [forLoop, hn, hs, hs']⟩

theorem Gives.forIn {α : Type} {pos : Pos} {vars : List Str} {e : Str} {body : Nodes}
    {f : α → Except TErr Str} {Q : α → NS → Prop} (φ : α → V) (xs : List α)
    (he : ∀ ns, P ns → ∃ v, W.eval e ns = .ok v ∧ W.iter v = .ok (xs.map φ))
    (hb : ∀ x ∈ xs, ∀ ns, P ns → ∃ ns', bindVars W vars (φ x) ns = .ok ns' ∧ Q x ns')
    (hq : ∀ x ∈ xs, ∀ ns, Q x ns → P ns) (hg : ∀ x ∈ xs, GivesL W (Q x) body (f x)) :
    Gives W P (.forIn pos vars e body) (xs.mapM f >>= fun ts => pure ts.flatten) := by
  have h := forLoop_gives xs hb hq hg
  cases hr : (xs.mapM f >>= fun ts => pure ts.flatten : Except TErr Str) with
  | ok t =>
    rw [hr] at h
    intro out ns inh hp
    obtain ⟨v, hv, hi⟩ := he ns hp
    simpa [Node.run, hv, hi] using h out ns inh hp
  | error er =>
    rw [hr] at h
    intro out ns inh hp
    obtain ⟨v, hv, hi⟩ := he ns hp
    simpa [Node.run, hv, hi] using h out ns inh hp

theorem Gives.forIn_error {pos : Pos} {vars : List Str} {e : Str} {body : Nodes} {er : Err}
    (he : ∀ ns, P ns → W.eval e ns = .error er) :
    Gives W P (.forIn pos vars e body) (.error (.python er)) :=
  fun out ns inh hp => ⟨⟨out, ns, inh⟩, by simp [Node.run, he ns hp]⟩

/-! ### Lines -/

/-- `t` consists of whole lines, and `L` are those that matter. -/
def IsLines (t : Str) (L : List Str) : Prop := ∀ rest, codeLines (t ++ rest) = L ++ codeLines rest

theorem IsLines.nil : IsLines [] [] := fun _ => rfl

theorem IsLines.append {t u : Str} {L M : List Str} (h : IsLines t L) (h' : IsLines u M) :
    IsLines (t ++ u) (L ++ M) := fun rest => by
  rw [List.append_assoc, h, h', List.append_assoc]

theorem IsLines.codeLines {t : Str} {L : List Str} (h : IsLines t L) : codeLines t = L := by
  have := h []
  simpa [Spec.Text.codeLines, splitLines] using this

theorem splitLines_line : ∀ (l rest : Str), '\n' ∉ l → splitLines (l ++ '\n' :: rest) = l :: splitLines rest
  | [], rest, _ => by simp [splitLines]
  | c :: l, rest, h => by
    have hc : c ≠ '\n' := fun hc => h (by rw [hc]; exact List.mem_cons_self ..)
    rw [List.cons_append, splitLines, splitLines_line l rest (fun hm => h (List.mem_cons_of_mem _ hm)),
      if_neg hc]

/-- Lines as text. -/
def unlines (ls : List Str) : Str := ls.flatMap fun l => l ++ ['\n']

theorem isLines_unlines : ∀ (ls : List Str), (∀ l ∈ ls, '\n' ∉ l) →
    IsLines (unlines ls) (ls.filter fun l => !ignored l)
  | [], _ => IsLines.nil
  | l :: ls, h => by
    intro rest
    have ih := isLines_unlines ls (fun m hm => h m (List.mem_cons_of_mem _ hm)) rest
    have : unlines (l :: ls) ++ rest = l ++ '\n' :: (unlines ls ++ rest) := by simp [unlines]
    rw [this, Spec.Text.codeLines, splitLines_line _ _ (h l (List.mem_cons_self ..))]
    rw [Spec.Text.codeLines] at ih
    by_cases hi : ignored l
    · simpa [hi] using ih
    · simpa [hi] using ih

theorem IsLines.mk {t : Str} {L : List Str} (ls : List Str) (h : t = unlines ls)
    (hn : ∀ l ∈ ls, '\n' ∉ l) (hL : L = ls.filter fun l => !ignored l) : IsLines t L := by
  subst h hL; exact isLines_unlines ls hn

/-- The same result, lines against text. -/
def SameLines : Except TErr Str → Except TErr (List Str) → Prop
  | .ok t, .ok L => IsLines t L
  | .error e, .error e' => e = e'
  | _, _ => False

/-- Like `Gives`, with whole lines. -/
def GivesLines (P : NS → Prop) (run : St V NS → St V NS × Stat) (r : Except TErr (List Str)) : Prop :=
  ∃ u, Outcome P run u ∧ SameLines u r

theorem GivesLines.ofText {run : St V NS → St V NS × Stat} {t : Str} {L : List Str}
    (h : Outcome P run (.ok t)) (hl : IsLines t L) : GivesLines P run (.ok L) := ⟨.ok t, h, hl⟩

theorem GivesLines.nil : GivesLines P (Nodes.nil.run W) (.ok []) := .ofText GivesL.nil .nil

theorem GivesLines.cons {n : Node} {ns : Nodes} {r u : Except TErr (List Str)}
    (h : GivesLines P (n.run W) r) (h' : GivesLines P (ns.run W) u) :
    GivesLines P ((Nodes.cons n ns).run W) (do let t ← r; let v ← u; pure (t ++ v)) := by
  obtain ⟨a, ha, hs⟩ := h
  obtain ⟨b, hb, hs'⟩ := h'
  refine ⟨_, GivesL.cons ha hb, ?_⟩
  cases a <;> cases r <;> cases b <;> cases u <;> simp_all [SameLines]
  exact hs.append hs'

theorem GivesLines.cons_ok {n : Node} {ns : Nodes} {L M : List Str}
    (h : GivesLines P (n.run W) (.ok L)) (h' : GivesLines P (ns.run W) (.ok M)) :
    GivesLines P ((Nodes.cons n ns).run W) (.ok (L ++ M)) := GivesLines.cons h h'

/-- An empty text chunk. -/
theorem GivesLines.skip {ns : Nodes} {r : Except TErr (List Str)} (h : GivesLines P (ns.run W) r) :
    GivesLines P ((Nodes.cons (.text []) ns).run W) r := by
  have := GivesLines.cons (.ofText (Gives.text (W := W) (P := P) []) .nil) h
  cases r <;> simpa using this

theorem GivesLines.cond {pos : Pos} {ps : Parts} {r : Except TErr (List Str)}
    (h : GivesLines P (ps.run W) r) : GivesLines P ((Node.cond pos ps).run W) r := by
  obtain ⟨u, hu, hs⟩ := h
  exact ⟨u, Gives.cond hu, hs⟩

theorem GivesLines.els {pos : Pos} {b : Nodes} {ps : Parts} {r : Except TErr (List Str)}
    (h : GivesLines P (b.run W) r) : GivesLines P ((Parts.cons none pos b ps).run W) r := by
  obtain ⟨u, hu, hs⟩ := h
  exact ⟨u, GivesP.els hu, hs⟩

theorem GivesLines.yes {pos : Pos} {e : Str} {b : Nodes} {ps : Parts} {r : Except TErr (List Str)}
    (he : ∀ ns, P ns → ∃ v, W.eval e ns = .ok v ∧ W.truth v = true) (h : GivesLines P (b.run W) r) :
    GivesLines P ((Parts.cons (some e) pos b ps).run W) r := by
  obtain ⟨u, hu, hs⟩ := h
  exact ⟨u, GivesP.yes he hu, hs⟩

theorem GivesLines.no {pos : Pos} {e : Str} {b : Nodes} {ps : Parts} {r : Except TErr (List Str)}
    (he : ∀ ns, P ns → ∃ v, W.eval e ns = .ok v ∧ W.truth v = false)
    (h : GivesLines P (ps.run W) r) : GivesLines P ((Parts.cons (some e) pos b ps).run W) r := by
  obtain ⟨u, hu, hs⟩ := h
  exact ⟨u, GivesP.no he hu, hs⟩

theorem GivesLines.noParts : GivesLines P (Parts.nil.run W) (.ok []) := .ofText GivesP.nil .nil

theorem sameLines_mapM {α : Type} {f : α → Except TErr Str} {g : α → Except TErr (List Str)} :
    ∀ (vs : List α), (∀ x ∈ vs, SameLines (f x) (g x)) →
      SameLines (vs.mapM f >>= fun ts => pure ts.flatten) (vs.mapM g >>= fun ts => pure ts.flatten)
  | [], _ => IsLines.nil
  | v :: vs, h => by
    have ih := sameLines_mapM vs (fun x hx => h x (List.mem_cons_of_mem _ hx))
    have h1 := h v (List.mem_cons_self ..)
    rw [List.mapM_cons, List.mapM_cons]
    revert ih h1
    rcases f v with _ | _ <;> rcases g v with _ | _ <;> rcases vs.mapM f with _ | _ <;>
      rcases vs.mapM g with _ | _ <;> simp [SameLines]
    all_goals first | exact fun h _ => h | exact fun h1 h2 => h2.append h1

theorem GivesLines.forIn {α : Type} {pos : Pos} {vars : List Str} {e : Str} {body : Nodes}
    {g : α → Except TErr (List Str)} (Q : α → NS → Prop) (φ : α → V) (xs : List α)
    (he : ∀ ns, P ns → ∃ v, W.eval e ns = .ok v ∧ W.iter v = .ok (xs.map φ))
    (hb : ∀ x ∈ xs, ∀ ns, P ns → ∃ ns', bindVars W vars (φ x) ns = .ok ns' ∧ Q x ns')
    (hq : ∀ x ∈ xs, ∀ ns, Q x ns → P ns) (hg : ∀ x ∈ xs, GivesLines (Q x) (body.run W) (g x)) :
    GivesLines P ((Node.forIn pos vars e body).run W) (xs.mapM g >>= fun ts => pure ts.flatten) := by
  classical
  have : ∃ f : α → Except TErr Str, ∀ x ∈ xs, Outcome (Q x) (body.run W) (f x) ∧ SameLines (f x) (g x) := by
    refine ⟨fun x => if h : x ∈ xs then (hg x h).choose else .ok [], fun x hx => ?_⟩
    simp only [hx, dif_pos]
    exact (hg x hx).choose_spec
  obtain ⟨f, hf⟩ := this
  exact ⟨_, Gives.forIn φ xs he hb hq (fun x hx => (hf x hx).1), sameLines_mapM xs fun x hx => (hf x hx).2⟩

theorem GivesLines.forIn_error {pos : Pos} {vars : List Str} {e : Str} {body : Nodes} {er : Err}
    (he : ∀ ns, P ns → W.eval e ns = .error er) :
    GivesLines P ((Node.forIn pos vars e body).run W) (.error (.python er)) :=
  ⟨.error (.python er), Gives.forIn_error he, rfl⟩

theorem mapM_ok {α β : Type} (f : α → List β) : ∀ (vs : List α),
    (vs.mapM (fun x => (Except.ok (f x) : Except TErr (List β))) >>= fun ts => pure ts.flatten)
      = .ok (vs.flatMap f)
  | [] => rfl
  | v :: vs => by
    have ih := mapM_ok f vs
    rw [List.mapM_cons]
    cases h : vs.mapM (fun x => (Except.ok (f x) : Except TErr (List β))) with
    | error e => rw [h] at ih; cases ih
    | ok ts =>
      rw [h] at ih
      have : ts.flatten = vs.flatMap f := by simpa using ih
      simp [this]

theorem GivesLines.forIn_ok {α : Type} {pos : Pos} {vars : List Str} {e : Str} {body : Nodes}
    {g : α → List Str} (Q : α → NS → Prop) (φ : α → V) (xs : List α)
    (he : ∀ ns, P ns → ∃ v, W.eval e ns = .ok v ∧ W.iter v = .ok (xs.map φ))
    (hb : ∀ x ∈ xs, ∀ ns, P ns → ∃ ns', bindVars W vars (φ x) ns = .ok ns' ∧ Q x ns')
    (hq : ∀ x ∈ xs, ∀ ns, Q x ns → P ns) (hg : ∀ x ∈ xs, GivesLines (Q x) (body.run W) (.ok (g x))) :
    GivesLines P ((Node.forIn pos vars e body).run W) (.ok (xs.flatMap g)) := by
  rw [← mapM_ok]
  exact GivesLines.forIn Q φ xs he hb hq hg

end Interp.Tempita
