import Verif.Proofs.CodegenReduce

/-!
# Basis functions in the templates

`blending_formula`, its own templates, the indentation of its text, and the loop that calls it.
-/

namespace Interp.CodegenText

open Tempita PyExpr Spec.Text Codegen

set_option maxRecDepth 4000
set_option linter.unusedSimpArgs false

/-! ### The templates of `blending_formula` -/

/-- Namespace of the templates of `blending_formula`. -/
structure AtB (i : ℕ) (ns : NS) : Prop where
  i : lookup c!"i" ns = some (.int i)
  phi : lookup c!"phi" ns = some (.func (.user c!"phi"))
  range : lookup c!"range" ns = none

/-- In a loop over the four functions. -/
structure AtBJ (i j : ℕ) (ns : NS) : Prop extends AtB i ns where
  j : lookup c!"j" ns = some (.int j)

theorem bind_j {U : UserFuns} {ns : NS} {i : ℕ} (j : ℕ) (h : AtB i ns) :
    ∃ ns', bindVars (world U) [c!"j"] (.int j) ns = .ok ns' ∧ AtBJ i j ns' :=
  ⟨_, rfl, ⟨by simp [world, lookup_cons, h.i], by simp [world, lookup_cons, h.phi],
    by simp [world, lookup_cons, h.range]⟩, by simp [world, lookup_cons]⟩

theorem iter_four {U : UserFuns} {ns : NS} {i : ℕ} (h : AtB i ns) :
    ∃ v, (world U).eval c!"range(4)" ns = .ok v ∧ (world U).iter v = .ok ((List.range 4).map .int) :=
  ⟨.list ((List.range 4).map .int), eval_of (a := .call c!"range" (.cons none (.int 4) .nil))
    (by decide +kernel) (by simp [PE.eval, PEs.eval, getName, h.range, builtin, apply]), rfl⟩

theorem expr_phi {ns : NS} {i j : ℕ} {pre : Str} (h : AtBJ i j ns) :
    evalExpr (world (phiFuns pre)) c!"phi(i,j)" ns = .ok (pre ++ dec i ++ c!"_" ++ dec j) :=
  evalExpr_of (a := .call c!"phi" (.cons none (.name c!"i") (.cons none (.name c!"j") .nil)))
    (by decide +kernel) (by decide +kernel) (v := .str (pre ++ dec i ++ c!"_" ++ dec j))
    (by simp [PE.eval, PEs.eval, getName, h.i, h.j, h.phi, apply, phiFuns]) rfl

/-- Collect the text of a straight piece of template. -/
macro "collectPhi" : tactic => `(tactic|
  repeat (first
    | with_reducible apply GivesAcc.text
    | (with_reducible apply GivesAcc.expr; · exact fun ns h => expr_i h.i)
    | (with_reducible apply GivesAcc.expr; · exact fun ns h => expr_j h.j)
    | (with_reducible apply GivesAcc.expr; · exact fun ns h => expr_phi h)))

theorem blendA_lines (i : ℕ) : GivesLines (AtB i) (blendATree.run (world (phiFuns c!"Φ_")))
    (.ok ((blend3 0 i).map String.toList)) := by
  simp only [blend3, List.map_append, List.append_assoc, List.map_map]
  unfold blendATree blendA0 blendA1 blendA2 blendA3 blendA4 blendA5 blendA6 blendA7 blendA8 blendA9 blendA10 blendA11 blendA12 blendA13 blendA14 blendA15 blendA16 blendA17 blendA18 blendA19 blendA20 blendA21 blendA22 blendA23 blendA24 blendA25 blendA26 blendA27 blendA28 blendA29 blendA30 blendA31 blendA32
  apply GivesAcc.start
  collectPhi
  refine GivesAcc.flush_ok (by
    lines ["", s!"μ_{i}_0 = λ_{i}*λ_{i}*λ_{i};  μ_{i}_1 = λ_{i}*λ_{i};  μ_{i}_2 = λ_{i};  μ_{i}_3 = 1.0;"]) ?_
  refine GivesLines.cons_ok ?_ ?_
  · rw [← flatMap_single]
    refine GivesLines.forIn_ok (AtBJ i) .int (List.range 4) (fun ns h => iter_four h)
      (fun j _ ns h => bind_j j h) (fun j _ ns h => h.toAtB) (fun j _ => ?_)
    apply GivesAcc.start
    collectPhi
    apply GivesAcc.nil
    lines [s!"{phi 0 i j}= 0.0"]
  apply GivesAcc.start
  collectPhi
  refine GivesAcc.flush_ok (by lines [s!"if λ_{i} < 0:"]) ?_
  refine GivesLines.cons_ok ?_ ?_
  · rw [← flatMap_single]
    refine GivesLines.forIn_ok (AtBJ i) .int (List.range 4) (fun ns h => iter_four h)
      (fun j _ ns h => bind_j j h) (fun j _ ns h => h.toAtB) (fun j _ => ?_)
    apply GivesAcc.start
    collectPhi
    apply GivesAcc.nil
    lines [s!"    {phi 0 i j} = dCd[{j},3]*μ_{i}_2 + Cd[{j},3]*μ_{i}_3"]
  apply GivesAcc.start
  collectPhi
  refine GivesAcc.flush_ok (by lines [s!"elif λ_{i} > 1:"]) ?_
  refine GivesLines.cons_ok ?_ ?_
  · rw [← flatMap_single]
    refine GivesLines.forIn_ok (AtBJ i) .int (List.range 4) (fun ns h => iter_four h)
      (fun j _ ns h => bind_j j h) (fun j _ ns h => h.toAtB) (fun j _ => ?_)
    apply GivesAcc.start
    collectPhi
    apply GivesAcc.nil
    lines [s!"    {phi 0 i j} = (3*Cd[{j},0] + 2*Cd[{j},1] + Cd[{j},2])*(μ_{i}_2-μ_{i}_3)" ++ s!" + (Cd[{j},0]+Cd[{j},1]+Cd[{j},2]+Cd[{j},3])*μ_{i}_3"]
  apply GivesAcc.start
  collectPhi
  refine GivesAcc.flush_ok (by lines ["else:"]) ?_
  refine only ?_
  · rw [← flatMap_single]
    refine GivesLines.forIn_ok (AtBJ i) .int (List.range 4) (fun ns h => iter_four h)
      (fun j _ ns h => bind_j j h) (fun j _ ns h => h.toAtB) (fun j _ => ?_)
    apply GivesAcc.start
    collectPhi
    apply GivesAcc.nil
    lines [s!"    {phi 0 i j} = (Cd[{j},0]*μ_{i}_0 + Cd[{j},1]*μ_{i}_1 + Cd[{j},2]*μ_{i}_2 + Cd[{j},3]*μ_{i}_3)"]

theorem blendB_lines (i : ℕ) : GivesLines (AtB i) (blendBTree.run (world (phiFuns c!"d_Φ_")))
    (.ok ((blend3 1 i).map String.toList)) := by
  simp only [blend3, List.map_append, List.append_assoc, List.map_map]
  unfold blendBTree blendB0 blendB1 blendB2 blendB3 blendB4 blendB5 blendB6 blendB7 blendB8 blendB9 blendB10 blendB11 blendB12 blendB13 blendB14 blendB15 blendB16 blendB17 blendB18 blendB19 blendB20 blendB21 blendB22 blendB23 blendB24 blendB25 blendB26 blendB27 blendB28 blendB29 blendB30 blendB31 blendB32
  apply GivesAcc.start
  collectPhi
  refine GivesAcc.flush_ok (by
    lines ["", s!"μ_{i}_0 = 3*λ_{i}*λ_{i}*δ_{i};  μ_{i}_1 = 2*λ_{i}*δ_{i};  μ_{i}_2 = δ_{i};  μ_{i}_3 = 0.0;"]) ?_
  refine GivesLines.cons_ok ?_ ?_
  · rw [← flatMap_single]
    refine GivesLines.forIn_ok (AtBJ i) .int (List.range 4) (fun ns h => iter_four h)
      (fun j _ ns h => bind_j j h) (fun j _ ns h => h.toAtB) (fun j _ => ?_)
    apply GivesAcc.start
    collectPhi
    apply GivesAcc.nil
    lines [s!"{phi 1 i j}= 0.0"]
  apply GivesAcc.start
  collectPhi
  refine GivesAcc.flush_ok (by lines [s!"if λ_{i} < 0:"]) ?_
  refine GivesLines.cons_ok ?_ ?_
  · rw [← flatMap_single]
    refine GivesLines.forIn_ok (AtBJ i) .int (List.range 4) (fun ns h => iter_four h)
      (fun j _ ns h => bind_j j h) (fun j _ ns h => h.toAtB) (fun j _ => ?_)
    apply GivesAcc.start
    collectPhi
    apply GivesAcc.nil
    lines [s!"    {phi 1 i j} = dCd[{j},3]*μ_{i}_2 + Cd[{j},3]*μ_{i}_3"]
  apply GivesAcc.start
  collectPhi
  refine GivesAcc.flush_ok (by lines [s!"elif λ_{i} > 1:"]) ?_
  refine GivesLines.cons_ok ?_ ?_
  · rw [← flatMap_single]
    refine GivesLines.forIn_ok (AtBJ i) .int (List.range 4) (fun ns h => iter_four h)
      (fun j _ ns h => bind_j j h) (fun j _ ns h => h.toAtB) (fun j _ => ?_)
    apply GivesAcc.start
    collectPhi
    apply GivesAcc.nil
    lines [s!"    {phi 1 i j} = (3*Cd[{j},0] + 2*Cd[{j},1] + Cd[{j},2])*(μ_{i}_2-μ_{i}_3)" ++ s!" + (Cd[{j},0]+Cd[{j},1]+Cd[{j},2]+Cd[{j},3])*μ_{i}_3"]
  apply GivesAcc.start
  collectPhi
  refine GivesAcc.flush_ok (by lines ["else:"]) ?_
  refine only ?_
  · rw [← flatMap_single]
    refine GivesLines.forIn_ok (AtBJ i) .int (List.range 4) (fun ns h => iter_four h)
      (fun j _ ns h => bind_j j h) (fun j _ ns h => h.toAtB) (fun j _ => ?_)
    apply GivesAcc.start
    collectPhi
    apply GivesAcc.nil
    lines [s!"    {phi 1 i j} = (Cd[{j},0]*μ_{i}_0 + Cd[{j},1]*μ_{i}_1 + Cd[{j},2]*μ_{i}_2 + Cd[{j},3]*μ_{i}_3)"]

/-! ### Substitution -/

theorem substitute_lines {W : World Val NS} {P : NS → Prop} {content : Str} {tree : Nodes} {L : List Str} {ns : NS}
    (hp : parse content = .ok tree) (h : GivesLines P (tree.run W) (.ok L)) (hn : P ns) :
    ∃ t, substitute W content ns = .ok t ∧ IsLines t L := by
  obtain ⟨u, hu, hs⟩ := h
  cases u with
  | error e => exact absurd hs (by simp [SameLines])
  | ok t =>
    obtain ⟨ns', _, hr⟩ := hu [] ns none hn
    refine ⟨t, ?_, hs⟩
    simp [substitute, hp, hr]

theorem substitute_error {W : World Val NS} {P : NS → Prop} {content : Str} {tree : Nodes} {e : TErr} {ns : NS}
    (hp : parse content = .ok tree) (h : GivesLines P (tree.run W) (.error e)) (hn : P ns) :
    substitute W content ns = .error e := by
  obtain ⟨u, hu, hs⟩ := h
  cases u with
  | ok t => exact absurd hs (by simp [SameLines])
  | error e' =>
    have he : e' = e := hs
    subst he
    obtain ⟨s', hr⟩ := hu [] ns none hn
    simp [substitute, hp, hr, throw, throwThe, MonadExceptOf.throw]

/-! ### `blending_formula` -/

theorem isLines_blank : IsLines c!"\n" [] :=
  IsLines.mk [[]] rfl (by simp) (by simp [ignored])

/-- `blending_formula` and the model raise the same exceptions and print the same lines. -/
theorem blendText_ok {k l i : ℕ} {st : Stmt} (cfg : Cfg) (h : blendingFormula k l i = .ok st) :
    ∃ t, blendText k l i = .ok t ∧ IsLines (t ++ c!"\n") ((stmt cfg st).map String.toList) := by
  unfold blendingFormula at h
  unfold blendText
  split_ifs at h with h1 h3 hl
  · have e : st = .blend1 l i := by simpa using h.symm
    subst e
    rw [if_pos h1]
    clear h h1
    rw [stmt, blend1]
    split_ifs with h0 h1
    · exact ⟨_, rfl, by lines [s!"Φ_{i}_0 = 1.0 - λ_{i}", s!"Φ_{i}_1 = λ_{i}"]⟩
    · exact ⟨_, rfl, by lines [s!"d_Φ_{i}_0 = -1.0/δ_{i}", s!"d_Φ_{i}_1 = 1.0/δ_{i}"]⟩
    · exact ⟨_, rfl, by lines ["", s!"d_{l}_Φ_{i}_0 = 0.0", s!"d_{l}_Φ_{i}_1 = 0.0"]⟩
  · have e : st = .blend3 l i := by simpa using h.symm
    subst e
    rw [if_neg h1, if_pos h3, stmt]
    have hn : AtB i [(c!"i", .int i), (c!"phi", .func (.user c!"phi"))] := by
      constructor <;> simp [lookup_cons, lookup_nil]
    obtain rfl | rfl : l = 0 ∨ l = 1 := by omega
    · obtain ⟨t, ht, hL⟩ := substitute_lines blendA_parse (blendA_lines i) hn
      rw [if_pos rfl, ht]
      exact ⟨t, rfl, by simpa using hL.append isLines_blank⟩
    · obtain ⟨t, ht, hL⟩ := substitute_lines blendB_parse (blendB_lines i) hn
      rw [if_neg (by simp), if_pos rfl, ht]
      exact ⟨t, rfl, by simpa using hL.append isLines_blank⟩

theorem blendText_error {k l i : ℕ} {e : Err} (h : blendingFormula k l i = .error e) :
    blendText k l i = .error e := by
  unfold blendingFormula at h
  unfold blendText
  split_ifs at h with h1 h3 hl
  · cases h
  · cases h
  · rw [if_neg h1, if_pos h3, if_neg (by omega), if_neg (by omega)]
    cases h
    rfl
  · rw [if_neg h1, if_neg h3]
    cases h
    rfl

/-! ### `indent` -/

theorem splitOn_ne_nil (c : Char) : ∀ s : Str, splitOn c s ≠ []
  | [] => by simp [splitOn]
  | a :: s => by
    rw [splitOn]
    split_ifs
    · simp
    · cases h : splitOn c s <;> simp

theorem splitLines_eq_splitOn : ∀ s : Str, splitLines (s ++ c!"\n") = splitOn '\n' s
  | [] => by simp [splitLines, splitOn]
  | a :: s => by
    rw [List.cons_append, splitLines, splitOn, splitLines_eq_splitOn s]
    split_ifs
    · rfl
    · cases splitOn '\n' s <;> rfl

theorem newline_splitOn (c : Char) : ∀ (s : Str), ∀ l ∈ splitOn c s, c ∉ l
  | [], l, h => by
    have : l = [] := by simpa [splitOn] using h
    simp [this]
  | a :: s, l, h => by
    have ih := newline_splitOn c s
    rw [splitOn] at h
    split_ifs at h with ha
    · rcases List.mem_cons.mp h with rfl | h
      · simp
      · exact ih l h
    · cases hs : splitOn c s with
      | nil => exact absurd hs (splitOn_ne_nil c s)
      | cons m ms =>
        rw [hs] at h ih
        rcases List.mem_cons.mp h with rfl | h
        · have := ih m (List.mem_cons_self ..)
          simp [this, Ne.symm ha]
        · exact ih l (List.mem_cons_of_mem _ h)

theorem unlines_intercalate : ∀ (ls : List Str), ls ≠ [] → List.intercalate c!"\n" ls ++ c!"\n" = unlines ls
  | [], h => absurd rfl h
  | [l], _ => by simp [List.intercalate, unlines]
  | l :: m :: ls, _ => by
    rw [List.intercalate_cons_cons, List.append_assoc, unlines_intercalate (m :: ls) (by simp)]
    simp [unlines]

theorem ignored_pad (n : ℕ) (l : Str) : ignored ((List.replicate n c!"    ").flatten ++ l) = ignored l := by
  induction n with
  | zero => rfl
  | succ n ih =>
    rw [← ih]
    simp [List.replicate_succ, ignored]

theorem isLines_indent {t : Str} {L : List Str} (n : ℕ) (h : IsLines (t ++ c!"\n") L) :
    IsLines (indentText t n ++ c!"\n") (L.map fun l => (List.replicate n c!"    ").flatten ++ l) := by
  have hL := h.codeLines
  rw [Spec.Text.codeLines, splitLines_eq_splitOn] at hL
  rw [indentText, unlines_intercalate _ (by simpa using splitOn_ne_nil '\n' t)]
  have hb : '\n' ∉ (List.replicate n c!"    ").flatten := by simp
  have := isLines_unlines ((splitOn '\n' t).map fun e => (List.replicate n c!"    ").flatten ++ e) (by
    intro l hl
    obtain ⟨m, hm, rfl⟩ := List.mem_map.mp hl
    have := newline_splitOn '\n' t m hm
    rw [List.mem_append]
    exact fun h => h.elim hb this)
  rw [← hL]
  convert this using 1
  rw [List.filter_map]
  congr 2
  funext l
  simp only [Function.comp, ignored_pad]

/-! ### The loop over the axes -/

/-- The result of the model, as lines. -/
def toLines {β : Type} (h : β → List Str) : Py β → Except TErr (List Str)
  | .ok b => .ok (h b)
  | .error e => .error (.python e)

/-- The blocks of basis functions, as lines. -/
def basisLines (cfg : Cfg) (pad : String) (i : ℕ) : Except TErr (List Str) :=
  match (basesOrders cfg.d cfg.orders)[i]? with
  | none => .error (.python .index)
  | some ls => ls.mapM (fun l => toLines (fun st => blk cfg pad [st]) (blendingFormula cfg.k l i)) >>=
      fun ts => pure ts.flatten

theorem basis_section {cfg : Cfg} {node : Node} {pad : String} {n : ℕ} {e : Str} {p q r : Pos}
    (hnode : node = .forIn p [c!"i"] c!"range(d)" (.cons (.text []) (.cons
      (.forIn q [c!"l"] c!"bases_orders[i]" (.cons (.text []) (.cons (.expr r e) (.cons (.text c!"\n") .nil))))
      (.cons (.text []) .nil))))
    (hpad : pad.toList = (List.replicate n c!"    ").flatten)
    (hok : ∀ {ns : NS} {i l : ℕ} {t : Str}, AtL cfg i l ns → blendText cfg.k l i = .ok t →
      evalExpr WC e ns = .ok (indentText t n))
    (herr : ∀ {ns : NS} {i l : ℕ} {er : Err}, AtL cfg i l ns → blendText cfg.k l i = .error er →
      evalExpr WC e ns = .error er) :
    GivesLines (Base cfg) (node.run WC)
      ((List.range cfg.d).mapM (basisLines cfg pad) >>= fun ts => pure ts.flatten) := by
  subst hnode
  refine GivesLines.forIn (AtI cfg) .int (List.range cfg.d) (fun ns h => iter_axes h)
    (fun i _ ns h => bind_i i h) (fun i _ ns h => h.base) (fun i _ => ?_)
  unfold basisLines
  apply GivesLines.skip
  refine only ?_
  cases hb : (basesOrders cfg.d cfg.orders)[i]? with
  | none => exact GivesLines.forIn_error fun ns h => bases_error h.base h.i hb
  | some ls =>
    refine GivesLines.forIn (AtL cfg i) .int ls (fun ns h => iter_bases h.base h.i hb)
      (fun l _ ns h => bind_l i l h) (fun l _ ns h => h.toAtI) (fun l _ => ?_)
    apply GivesLines.skip
    apply GivesAcc.start
    cases hf : blendingFormula cfg.k l i with
    | error er =>
      exact GivesAcc.expr_error fun ns h => herr h (blendText_error hf)
    | ok st =>
      obtain ⟨t, ht, hL⟩ := blendText_ok cfg hf
      refine GivesAcc.expr (fun ns h => hok h ht) ?_
      apply GivesAcc.text
      apply GivesAcc.nil
      rw [List.nil_append]
      convert isLines_indent n hL using 1
      simp [blk, block, String.toList_append, hpad]

theorem mapM_lines {α β : Type} {f : α → Py β} {h : β → List Str} :
    ∀ xs : List α, (xs.mapM (fun a => toLines h (f a)) >>= fun ts => pure ts.flatten)
      = toLines (fun bs => bs.flatMap h) (xs.mapM f)
  | [] => rfl
  | x :: xs => by
    have ih := mapM_lines (f := f) (h := h) xs
    rw [List.mapM_cons, List.mapM_cons]
    cases hx : f x with
    | error e => rfl
    | ok b =>
      cases hm : xs.mapM f with
      | error e =>
        rw [hm] at ih
        cases hg : xs.mapM (fun a => toLines h (f a)) with
        | error e' =>
          rw [hg] at ih
          exact ih
        | ok ts => rw [hg] at ih; cases ih
      | ok bs =>
        rw [hm] at ih
        cases hg : xs.mapM (fun a => toLines h (f a)) with
        | error e' => rw [hg] at ih; cases ih
        | ok ts =>
          rw [hg] at ih
          have e : ts.flatten = bs.flatMap h := Except.ok.inj ih
          show Except.ok (h b :: ts).flatten = Except.ok ((b :: bs).flatMap h)
          simp [e]

theorem blk_single (cfg : Cfg) (pad : String) (bs : List Stmt) :
    (bs.flatMap fun st => blk cfg pad [st]) = blk cfg pad bs := by
  induction bs with
  | nil => simp
  | cons b bs ih => rw [List.flatMap_cons, ih, ← blk_append]; rfl

/-- The basis functions of the model, as lines. -/
theorem basis_lines (cfg : Cfg) (pad : String) :
    ((List.range cfg.d).mapM (basisLines cfg pad) >>= fun ts => pure ts.flatten)
      = toLines (blk cfg pad) (genBasis cfg) := by
  have e : basisLines cfg pad = fun i => toLines (blk cfg pad)
      (match (basesOrders cfg.d cfg.orders)[i]? with
      | none => throw .index
      | some ls => ls.mapM fun l => blendingFormula cfg.k l i) := by
    funext i
    unfold basisLines
    cases (basesOrders cfg.d cfg.orders)[i]? with
    | none => rfl
    | some ls =>
      simp only [mapM_lines, blk_single]
  rw [e, mapM_lines, genBasis]
  cases ((List.range cfg.d).mapM fun i =>
      match (basesOrders cfg.d cfg.orders)[i]? with
      | none => (throw Err.index : Py (List Stmt))
      | some ls => ls.mapM fun l => blendingFormula cfg.k l i) with
  | error e => rfl
  | ok bs =>
    show Except.ok _ = Except.ok (blk cfg pad bs.flatten)
    congr 1
    induction bs with
    | nil => simp
    | cons b bs ih =>
      show (b :: bs).flatMap (blk cfg pad) = _
      rw [List.flatMap_cons, List.flatten_cons, blk_append, ← ih]

theorem point9_lines (cfg : Cfg) : GivesLines (Base cfg) (point9.run WC)
    (toLines (blk cfg "    ") (genBasis cfg)) := by
  rw [← basis_lines]
  exact basis_section (n := 1) rfl rfl (fun h ht => expr_blend1 h.base h.i h.l ht)
    (fun h ht => expr_blend1_error h.base h.i h.l ht)

theorem rows11_lines (cfg : Cfg) : GivesLines (Base cfg) (rows11.run WC)
    (toLines (blk cfg "        ") (genBasis cfg)) := by
  rw [← basis_lines]
  exact basis_section (n := 2) rfl rfl (fun h ht => expr_blend2 h.base h.i h.l ht)
    (fun h ht => expr_blend2_error h.base h.i h.l ht)

end Interp.CodegenText
