import Verif.Spec.TemplateTree
import Verif.Proofs.TemplateTrim

/-!
# The template engine produces what a template means
-/

namespace Interp.Tempita

open Spec.Templates

/-! ### Strings -/

theorem lstrip_of_head {s : Str} {c : Char} (h : s.head? = some c) (hc : isSpace c = false) : lstrip s = s := by
  obtain ⟨s', rfl⟩ := List.head?_eq_some_iff.1 h
  unfold lstrip
  rw [List.dropWhile_cons_of_neg (by simp [hc])]

theorem rstrip_of_last {s : Str} {c : Char} (h : s.getLast? = some c) (hc : isSpace c = false) : rstrip s = s := by
  unfold rstrip
  have h' : s.reverse.head? = some c := by rw [List.head?_reverse]; exact h
  have := lstrip_of_head h' hc
  unfold lstrip at this
  rw [this, List.reverse_reverse]

theorem strip_of_ends {s : Str} {c d : Char} (h : s.head? = some c) (hc : isSpace c = false)
    (h' : s.getLast? = some d) (hd : isSpace d = false) : strip s = s := by
  unfold strip
  rw [lstrip_of_head h hc, rstrip_of_last h' hd]

theorem rstrip_cons {c : Char} (hc : isSpace c = false) (s : Str) : ∃ s', rstrip (c :: s) = c :: s' := by
  unfold rstrip
  rw [List.reverse_cons]
  by_cases h : ∀ x ∈ s.reverse, isSpace x
  · rw [List.dropWhile_append_of_pos h, List.dropWhile_cons_of_neg (by simp [hc])]
    exact ⟨[], rfl⟩
  · refine ⟨(s.reverse.dropWhile isSpace).reverse, ?_⟩
    rw [List.dropWhile_append, if_neg]
    · simp
    · intro h'
      exact h (all_of_dropWhile_nil (by simpa using h'))

theorem strip_cons {c : Char} (hc : isSpace c = false) (s : Str) : ∃ s', strip (c :: s) = c :: s' := by
  unfold strip
  rw [lstrip_of_head (s := c :: s) rfl hc]
  exact rstrip_cons hc s

theorem last_append {a e : Str} {c : Char} (h : e.getLast? = some c) : (a ++ e).getLast? = some c := by
  rw [List.getLast?_append, h]; rfl

theorem dropColon_of_last {s : Str} {c : Char} (h : s.getLast? = some c) (hc : c ≠ ':') : dropColon s = s := by
  unfold dropColon
  rw [if_neg]
  rw [h]
  intro h'
  exact hc (Option.some.inj h')

theorem splitOn_eq (c : Char) : ∀ s : Str, splitOn c s = s.splitOn c
  | [] => by simp [splitOn]
  | a :: s => by
    rw [splitOn, splitOn_eq c s, List.splitOn_cons_eq_if_modifyHead]
    by_cases h : a = c
    · simp [h]
    · rw [if_neg h, if_neg (by simpa using h)]
      cases hs : s.splitOn c with
      | nil => exact absurd hs (List.splitOn_ne_nil _ _)
      | cons x xs => rfl

theorem inSearch_name : ∀ (v acc e : Str), (∀ c ∈ v, isSpace c = false) → (∃ c, e.head? = some c ∧ isSpace c = false) →
    inSearch acc (v ++ ' ' :: 'i' :: 'n' :: ' ' :: e) = some (acc.reverse ++ v, e)
  | [], acc, e, _, ⟨c, hc, hs⟩ => by
    have he := lstrip_of_head hc hs
    unfold lstrip at he
    have h1 : isSpace ' ' = true := by decide
    have h2 : isSpace 'i' = false := by decide
    rw [List.nil_append, inSearch, if_pos h1, List.dropWhile_cons_of_neg (by simp [h2])]
    simp only [h1, if_true, he, List.append_nil]
  | d :: v, acc, e, hv, he => by
    rw [List.cons_append, inSearch, if_neg (by simp [hv d (by simp)]),
      inSearch_name v (d :: acc) e (fun c hc => hv c (List.mem_cons_of_mem _ hc)) he]
    simp

/-! ### Single codes -/

theorem not_startsWith {k s : Str} (h : ¬ k <+: s) : startsWith k s = false := by
  unfold startsWith
  by_contra h'
  rw [Bool.not_eq_false, List.isPrefixOf_iff_prefix] at h'
  exact h h'

theorem parseExpr_plain {e : Str} (h : Plain e) (f : ℕ) (b : Bool) (p : Pos) (ts : List Chunk) :
    parseExpr (f + 1) b (.code e p :: ts) = .ok (.expr p e, ts) := by
  obtain ⟨h1, h2⟩ := h
  simp only [List.forall_mem_cons, List.not_mem_nil, false_imp_iff, implies_true, and_true] at h1 h2
  obtain ⟨a1, a2, a3, a4, a5, a6, a7, a8⟩ := h1
  obtain ⟨b1, b2, b3, b4, b5, b6, b7, b8, b9⟩ := h2
  rw [parseExpr]
  simp only [not_startsWith a1, not_startsWith a2, not_startsWith a3, not_startsWith a4, not_startsWith a5,
    not_startsWith a6, not_startsWith a7, not_startsWith a8, beq_eq_false_iff_ne.2 b1, beq_eq_false_iff_ne.2 b2,
    beq_eq_false_iff_ne.2 b3, beq_eq_false_iff_ne.2 b4, beq_eq_false_iff_ne.2 b5, beq_eq_false_iff_ne.2 b6,
    beq_eq_false_iff_ne.2 b7, beq_eq_false_iff_ne.2 b8, beq_eq_false_iff_ne.2 b9, Bool.or_false, Bool.false_eq_true,
    if_false]
  rfl

theorem parseExpr_py {c : Str} (h : Line c) (f : ℕ) (b : Bool) (p : Pos) (ts : List Chunk) :
    parseExpr (f + 1) b (.code ("py:".toList ++ c) p :: ts) = .ok (.py p c, ts) := by
  obtain ⟨h1, h2, h3⟩ := h
  have hs : strip ("py:".toList ++ c) = "py:".toList ++ c := by
    cases hc : c.getLast? with
    | none =>
      rw [List.getLast?_eq_none_iff] at hc
      subst hc
      decide
    | some x => exact strip_of_ends (c := 'p') rfl (by decide) (last_append hc) (h3 x hc)
  have hp : parsePy ("py:".toList ++ c) p = .ok (.py p c) := by
    have hd : (List.drop 3 ("py:".toList ++ c)).dropWhile isBlank = c := by
      show c.dropWhile isBlank = c
      cases c with
      | nil => rfl
      | cons x c =>
        rw [List.dropWhile_cons_of_neg]
        intro hb
        have := h2 x rfl
        rw [isBlank_space hb] at this
        cases this
    unfold parsePy
    rw [hd]
    dsimp only
    split
    · exact absurd (h2 '\n' rfl) (by decide)
    · exact absurd (h2 '\r' rfl) (by decide)
    · rw [if_neg h1]; rfl
  have hw : startsWith "py:".toList ("py:".toList ++ c) = true := by simp [startsWith, List.isPrefixOf]
  rw [parseExpr, hs]
  dsimp only
  rw [if_pos hw, hp]
  rfl

theorem parseExpr_comment (c : Str) (f : ℕ) (b : Bool) (p : Pos) (ts : List Chunk) :
    parseExpr (f + 1) b (.code ("#".toList ++ c) p :: ts) = .ok (.comment p, ts) := by
  obtain ⟨c', hc⟩ := strip_cons (c := '#') (by decide) c
  have hc : strip ("#".toList ++ c) = '#' :: c' := hc
  rw [parseExpr, hc]
  simp [startsWith, List.isPrefixOf]
  rfl

theorem parseExpr_cont (f : ℕ) (p : Pos) (ts : List Chunk) :
    parseExpr (f + 1) true (.code "continue".toList p :: ts) = .ok (.cont p, ts) := by
  have hc : strip "continue".toList = "continue".toList := by decide +kernel
  rw [parseExpr, hc]
  simp [startsWith, List.isPrefixOf]
  rfl

theorem parseExpr_brk (f : ℕ) (p : Pos) (ts : List Chunk) :
    parseExpr (f + 1) true (.code "break".toList p :: ts) = .ok (.brk p, ts) := by
  have hc : strip "break".toList = "break".toList := by decide +kernel
  rw [parseExpr, hc]
  simp [startsWith, List.isPrefixOf]
  rfl

theorem parseExpr_loop {v e : Str} (hv : Name v) (he : Tight e) (f : ℕ) (b : Bool) (p : Pos) (ts : List Chunk) :
    parseExpr (f + 1) b (.code ("for ".toList ++ v ++ " in ".toList ++ e) p :: ts) =
      (parseUntil f true (· == "endfor".toList) p ts).map fun r => (.forIn p [v] e r.1, r.2.drop 1) := by
  obtain ⟨hv0, hv⟩ := hv
  obtain ⟨he1, x, hx, hxs, hxc⟩ := he
  set raw := "for ".toList ++ v ++ " in ".toList ++ e with hraw
  have hlast : raw.getLast? = some x := by rw [hraw]; exact last_append hx
  have hs : strip raw = raw := strip_of_ends (c := 'f') rfl (by decide) hlast hxs
  obtain ⟨y, v', rfl⟩ := List.exists_cons_of_ne_nil hv0
  have hhead : forHead raw p = .ok ([y :: v'], e) := by
    unfold forHead
    rw [if_pos (by rw [hraw]; simp [startsWith, List.isPrefixOf]), dropColon_of_last hlast hxc]
    have e1 : strip (raw.drop 3) = (y :: v') ++ ' ' :: 'i' :: 'n' :: ' ' :: e := by
      have : raw.drop 3 = ' ' :: ((y :: v') ++ ' ' :: 'i' :: 'n' :: ' ' :: e) := by simp [hraw]
      rw [this]
      unfold strip lstrip
      rw [List.dropWhile_cons_of_pos (by decide), List.cons_append, List.dropWhile_cons_of_neg (by simp [(hv y (by simp)).1]),
        ← List.cons_append]
      refine rstrip_of_last (c := x) ?_ hxs
      rw [show (y :: v') ++ ' ' :: 'i' :: 'n' :: ' ' :: e = ((y :: v') ++ [' ', 'i', 'n', ' ']) ++ e by simp]
      exact last_append hx
    dsimp only
    rw [e1, inSearch_name _ _ _ (fun c hc => (hv c hc).1) he1]
    dsimp only
    rw [List.reverse_nil, List.nil_append, if_neg (fun h => (hv _ h).2.2 rfl), splitOn_eq,
      List.splitOn_eq_singleton (fun h => (hv _ h).2.1 rfl)]
    have hst : strip (y :: v') = y :: v' := by
      obtain ⟨z, hz⟩ : ∃ z, (y :: v').getLast? = some z := ⟨_, List.getLast?_eq_some_getLast (by simp)⟩
      exact strip_of_ends rfl (hv y (by simp)).1 hz (hv z (List.mem_of_getLast? hz)).1
    simp only [List.map_cons, List.map_nil, hst]
    rfl
  rw [parseExpr, hs]
  dsimp only
  rw [hhead]
  have hr : raw = 'f' :: 'o' :: 'r' :: ' ' :: (y :: v' ++ " in ".toList ++ e) := by simp [hraw]
  rw [hr]
  simp [startsWith, List.isPrefixOf]
  generalize parseUntil f true _ p ts = r
  cases r <;> rfl

theorem parseExpr_cond {c : Str} (hc : Tight c) (f : ℕ) (b : Bool) (p : Pos) (ts : List Chunk) :
    parseExpr (f + 1) b (.code ("if ".toList ++ c) p :: ts) =
      (parseCond f b p (.code ("if ".toList ++ c) p :: ts)).map fun r => (.cond p r.1, r.2) := by
  obtain ⟨hc1, x, hx, hxs, hxc⟩ := hc
  have hs : strip ("if ".toList ++ c) = "if ".toList ++ c :=
    strip_of_ends (c := 'i') rfl (by decide) (last_append hx) hxs
  rw [parseExpr, hs]
  simp [startsWith, List.isPrefixOf]
  generalize parseCond f b p _ = r
  cases r <;> rfl

theorem parseCond_if {c : Str} (hc : Tight c) (f : ℕ) (b : Bool) (p q : Pos) (ts : List Chunk) :
    parseCond (f + 1) b q (.code ("if ".toList ++ c) p :: ts) = (do
      let (body, ts) ← parseUntil f b stopIf p ts
      let (ps, ts) ← parseCond f b q ts
      pure (.cons (some c) p body ps, ts)) := by
  obtain ⟨⟨y, hy, hys⟩, x, hx, hxs, hxc⟩ := hc
  have h1 : condHead ("if ".toList ++ c) = .ok (some c) := by
    unfold condHead
    rw [dropColon_of_last (last_append hx) hxc]
    dsimp only
    rw [if_pos (by simp [startsWith, List.isPrefixOf])]
    show Except.ok (some (lstrip c)) = _
    rw [lstrip_of_head hy hys]
  rw [parseCond, h1, if_neg (by simp)]
  rfl

theorem parseCond_elif {c : Str} (hc : Tight c) (f : ℕ) (b : Bool) (p q : Pos) (ts : List Chunk) :
    parseCond (f + 1) b q (.code ("elif ".toList ++ c) p :: ts) = (do
      let (body, ts) ← parseUntil f b stopIf p ts
      let (ps, ts) ← parseCond f b q ts
      pure (.cons (some c) p body ps, ts)) := by
  obtain ⟨⟨y, hy, hys⟩, x, hx, hxs, hxc⟩ := hc
  have h1 : condHead ("elif ".toList ++ c) = .ok (some c) := by
    unfold condHead
    rw [dropColon_of_last (last_append hx) hxc]
    dsimp only
    rw [if_neg (by simp [startsWith, List.isPrefixOf]), if_pos (by simp [startsWith, List.isPrefixOf])]
    show Except.ok (some (lstrip c)) = _
    rw [lstrip_of_head hy hys]
  rw [parseCond, h1, if_neg (by simp)]
  rfl

theorem parseCond_else (f : ℕ) (b : Bool) (p q : Pos) (ts : List Chunk) :
    parseCond (f + 1) b q (.code "else".toList p :: ts) = (do
      let (body, ts) ← parseUntil f b stopIf p ts
      let (ps, ts) ← parseCond f b q ts
      pure (.cons none p body ps, ts)) := by
  have h1 : condHead "else".toList = .ok none := by
    unfold condHead
    rw [dropColon_of_last (c := 'e') (by simp) (by decide)]
    simp [startsWith, List.isPrefixOf]
    rfl
  rw [parseCond, h1, if_neg (by simp)]
  rfl

theorem parseCond_endif (f : ℕ) (b : Bool) (p q : Pos) (ts : List Chunk) :
    parseCond (f + 1) b q (.code "endif".toList p :: ts) = .ok (.nil, ts) := by
  rw [parseCond, if_pos (by simp)]
  rfl

/-! ### A block ends where it should -/

theorem rstrip_all (a : Str) {x : Str} (h : ∀ c ∈ x, isSpace c) : rstrip (a ++ x) = rstrip a := by
  unfold rstrip
  rw [List.reverse_append, List.dropWhile_append_of_pos (by simpa using h)]

theorem rstrip_append (a : Str) {x : Str} (h : ¬ ∀ c ∈ x, isSpace c) : rstrip (a ++ x) = a ++ rstrip x := by
  unfold rstrip
  rw [List.reverse_append, List.dropWhile_append, if_neg]
  · simp
  · intro h'
    exact h (by simpa using all_of_dropWhile_nil (by simpa using h'))

theorem elif_strip {e : Str} (h : "elif ".toList <+: e) : "elif ".toList <+: strip e ∨ strip e = "elif".toList := by
  obtain ⟨x, rfl⟩ := h
  unfold strip
  rw [lstrip_of_head (c := 'e') rfl (by decide)]
  by_cases hx : ∀ c ∈ x, isSpace c
  · right
    rw [rstrip_all _ hx]
    decide +kernel
  · left
    rw [rstrip_append _ hx]
    exact ⟨_, rfl⟩

theorem plain_not_stop {e : Str} (h : Plain e) : (e == "endfor".toList) = false ∧ stopIf e = false := by
  obtain ⟨h1, h2⟩ := h
  simp only [List.forall_mem_cons, List.not_mem_nil, false_imp_iff, implies_true, and_true] at h1 h2
  obtain ⟨a1, a2, a3, a4, a5, a6, a7, a8⟩ := h1
  obtain ⟨b1, b2, b3, b4, b5, b6, b7, b8, b9⟩ := h2
  refine ⟨?_, ?_⟩
  · rw [beq_eq_false_iff_ne]
    rintro rfl
    exact b8 (by decide +kernel)
  · unfold stopIf
    simp only [Bool.or_eq_false_iff, beq_eq_false_iff_ne]
    refine ⟨⟨?_, ?_⟩, ?_⟩
    · rintro rfl
      exact b7 (by decide +kernel)
    · by_contra h
      rw [Bool.not_eq_false] at h
      rcases elif_strip (List.isPrefixOf_iff_prefix.1 h) with h | h
      · exact a3 h
      · exact b5 h
    · rintro rfl
      exact b3 (by decide +kernel)

/-- A test for the end of a block. -/
def IsStop (stop : Str → Bool) : Prop := stop = (· == "endfor".toList) ∨ stop = stopIf

theorem not_stops {stop : Str → Bool} (hstop : IsStop stop) {l : Bool} {t : Tpl} (ht : t.Ok l) {cs : List Chunk}
    (h : cs.map erase = t.toks) (rest : List Chunk) : stops stop (cs ++ rest) = false ∧ cs ≠ [] := by
  have key : ∃ c cs', cs = c :: cs' ∧ ∀ s p, c = .code s p → stop s = false := by
    have code : ∀ {s : Str} {tl : List Tok}, cs.map erase = .code s :: tl → stop s = false →
        ∃ c cs', cs = c :: cs' ∧ ∀ s p, c = .code s p → stop s = false := by
      intro s tl h hs
      cases cs with
      | nil => cases h
      | cons c cs =>
        refine ⟨c, cs, rfl, ?_⟩
        rintro s' p rfl
        rw [List.map_cons, List.cons.injEq] at h
        cases h.1
        exact hs
    cases t with
    | text s =>
      cases cs with
      | nil => cases h
      | cons c cs =>
        refine ⟨c, cs, rfl, ?_⟩
        rintro s' p rfl
        rw [Tpl.toks, List.map_cons, List.cons.injEq] at h
        cases h.1
    | expr e =>
      rw [Tpl.Ok] at ht
      refine code (by rw [h, Tpl.toks]) ?_
      rcases hstop with rfl | rfl
      · exact (plain_not_stop ht).1
      · exact (plain_not_stop ht).2
    | py c =>
      refine code (by rw [h, Tpl.toks]) ?_
      rcases hstop with rfl | rfl <;> simp [stopIf, startsWith, List.isPrefixOf]
    | comment c =>
      refine code (by rw [h, Tpl.toks]) ?_
      rcases hstop with rfl | rfl <;> simp [stopIf, startsWith, List.isPrefixOf]
    | cont =>
      refine code (by rw [h, Tpl.toks]) ?_
      rcases hstop with rfl | rfl <;> simp [stopIf, startsWith, List.isPrefixOf]
    | brk =>
      refine code (by rw [h, Tpl.toks]) ?_
      rcases hstop with rfl | rfl <;> simp [stopIf, startsWith, List.isPrefixOf]
    | loop v e body =>
      refine code (by rw [h, Tpl.toks]) ?_
      rcases hstop with rfl | rfl <;> simp [stopIf, startsWith, List.isPrefixOf]
    | cond c body rest =>
      refine code (by rw [h, Tpl.toks]) ?_
      rcases hstop with rfl | rfl <;> simp [stopIf, startsWith, List.isPrefixOf]
  obtain ⟨c, cs', rfl, hc⟩ := key
  refine ⟨?_, by simp⟩
  cases c with
  | text s => rfl
  | code s p => exact hc s p rfl

theorem branches_stop {b : Branches} {cs : List Chunk} (h : cs.map erase = b.toks) :
    ∃ k q cs', cs = .code k q :: cs' ∧ stopIf k = true := by
  have code : ∀ {s : Str} {tl : List Tok}, cs.map erase = .code s :: tl → stopIf s = true →
      ∃ k q cs', cs = .code k q :: cs' ∧ stopIf k = true := by
    intro s tl h hs
    cases cs with
    | nil => cases h
    | cons c cs =>
      rw [List.map_cons, List.cons.injEq] at h
      cases c with
      | text _ => cases h.1
      | code k q =>
        cases h.1
        exact ⟨_, _, _, rfl, hs⟩
  cases b with
  | none => exact code (by rw [h, Branches.toks]) (by simp [stopIf])
  | els body => exact code (by rw [h, Branches.toks]) (by simp [stopIf])
  | elif c body rest => exact code (by rw [h, Branches.toks]) (by simp [stopIf, startsWith, List.isPrefixOf])

/-! ### Running -/

/-- The way a piece ends, as a status of the interpreter. -/
def Flow.stat : Flow → Stat
  | .next => .ok
  | .cont => .cont
  | .brk => .brk

variable {V NS : Type}

/-- A run that produces what is meant. -/
def Agrees (run : St V NS → St V NS × Stat) (den : NS → Except Err (Str × NS × Flow)) : Prop :=
  ∀ s : St V NS, (∀ o ns fl, den s.ns = .ok (o, ns, fl) → run s = (⟨s.out ++ o, ns, s.inh⟩, Flow.stat fl)) ∧
    ∀ e, den s.ns = .error e → (run s).2 = .err (.python e)

theorem filters_eq (W : World V NS) (ns : NS) : ∀ (fs : List Str) (v : V),
    filters W ns fs v = fs.foldlM (fun v f => do W.call (← W.eval f ns) v) v
  | [], v => rfl
  | f :: fs, v => by
    rw [filters, List.foldlM_cons]
    cases W.eval f ns with
    | error e => rfl
    | ok g =>
      show (W.call g v >>= fun v => filters W ns fs v) = _
      cases hc : W.call g v with
      | error e => simp [hc, bind, Except.bind]
      | ok v' =>
        simp only [bind, Except.bind, hc]
        exact filters_eq W ns fs v'

theorem evalExpr_eq (W : World V NS) (e : Str) (ns : NS) : evalExpr W e ns = exprText W ns e := by
  unfold evalExpr exprText
  rw [splitOn_eq]
  cases hs : e.splitOn '|' with
  | nil => exact absurd hs (List.splitOn_ne_nil _ _)
  | cons p fs =>
    show (W.eval p ns >>= fun v => filters W ns fs v >>= fun v => W.str v) = _
    simp only [filters_eq]

theorem agrees_const (W : World V NS) {run : St V NS → St V NS × Stat} {o : Str} {fl : Flow}
    (h : ∀ s, run s = (⟨s.out ++ o, s.ns, s.inh⟩, Flow.stat fl)) : Agrees run (fun ns => .ok (o, ns, fl)) := by
  intro s
  refine ⟨?_, ?_⟩
  · rintro o' ns fl' h'
    cases h'
    exact h s
  · rintro e h'
    cases h'

theorem forLoop_agrees (W : World V NS) (v : Str) {body : St V NS → St V NS × Stat}
    {den : NS → Except Err (Str × NS × Flow)} (h : Agrees body den) :
    ∀ xs : List V, Agrees (forLoop W [v] body xs) (loopText (fun x ns => den (W.set ns v x)) xs)
  | [] => by
    intro s
    refine ⟨?_, ?_⟩
    · rintro o' ns fl' h'
      cases h'
      simp [forLoop, Flow.stat]
    · rintro e h'
      cases h'
  | x :: xs => by
    intro s
    have hb := h { s with ns := W.set s.ns v x }
    have ih := forLoop_agrees W v h xs
    simp only [forLoop, bindVars]
    rw [loopText]
    show (∀ o ns fl, (den (W.set s.ns v x) >>= _) = _ → _) ∧ ∀ e, (den (W.set s.ns v x) >>= _) = _ → _
    cases hd : den (W.set s.ns v x) with
    | error e =>
      refine ⟨fun o ns fl h' => (by cases h'), fun e' h' => ?_⟩
      cases h'
      have := hb.2 e hd
      show (match body { s with ns := W.set s.ns v x } with
        | (s', .ok) | (s', .cont) => forLoop W [v] body xs s'
        | (s', .brk) => (s', .ok)
        | (s', .err e) => (s', .err e)).2 = _
      generalize body { s with ns := W.set s.ns v x } = r at this
      obtain ⟨s', st⟩ := r
      cases this
      rfl
    | ok r =>
      obtain ⟨o, ns, fl⟩ := r
      have hr := hb.1 o ns fl hd
      show (∀ o ns fl, _ → (match body { s with ns := W.set s.ns v x } with
        | (s', .ok) | (s', .cont) => forLoop W [v] body xs s'
        | (s', .brk) => (s', .ok)
        | (s', .err e) => (s', .err e)) = _) ∧ ∀ e, _ → (match body { s with ns := W.set s.ns v x } with
        | (s', .ok) | (s', .cont) => forLoop W [v] body xs s'
        | (s', .brk) => (s', .ok)
        | (s', .err e) => (s', .err e)).2 = _
      rw [hr]
      have ih' := ih ⟨s.out ++ o, ns, s.inh⟩
      have go : (∀ o' ns' fl', (do
            let (o', ns, fl) ← loopText (fun x ns => den (W.set ns v x)) xs ns
            pure (o ++ o', ns, fl) : Except Err (Str × NS × Flow)) = .ok (o', ns', fl') →
            forLoop W [v] body xs ⟨s.out ++ o, ns, s.inh⟩ = (⟨s.out ++ o', ns', s.inh⟩, Flow.stat fl')) ∧
          ∀ e, (do
            let (o', ns, fl) ← loopText (fun x ns => den (W.set ns v x)) xs ns
            pure (o ++ o', ns, fl) : Except Err (Str × NS × Flow)) = .error e →
            (forLoop W [v] body xs ⟨s.out ++ o, ns, s.inh⟩).2 = .err (.python e) := by
        cases hl : loopText (fun x ns => den (W.set ns v x)) xs ns with
        | error e =>
          refine ⟨fun o ns fl h' => (by cases h'), fun e' h' => ?_⟩
          cases h'
          exact ih'.2 e hl
        | ok r =>
          obtain ⟨o2, ns2, fl2⟩ := r
          refine ⟨fun o ns fl h' => ?_, fun e' h' => (by cases h')⟩
          cases h'
          rw [ih'.1 o2 ns2 fl2 hl, List.append_assoc]
      cases fl with
      | next => exact go
      | cont => exact go
      | brk =>
        refine ⟨fun o ns fl h' => ?_, fun e' h' => (by cases h')⟩
        cases h'
        rfl

theorem cons_agrees (W : World V NS) {n : Node} {ns : Nodes} {d1 d2 : NS → Except Err (Str × NS × Flow)}
    (h1 : Agrees (n.run W) d1) (h2 : Agrees (ns.run W) d2) :
    Agrees ((Nodes.cons n ns).run W) (fun nm => do
      let (o, nm, fl) ← d1 nm
      match fl with
      | .next => do
        let (o', nm, fl) ← d2 nm
        pure (o ++ o', nm, fl)
      | fl => pure (o, nm, fl)) := by
  intro s
  have ha := h1 s
  rw [Nodes.run]
  dsimp only
  cases hd : d1 s.ns with
  | error e =>
    refine ⟨fun o ns fl h' => (by cases h'), fun e' h' => ?_⟩
    cases h'
    have := ha.2 e hd
    generalize n.run W s = r at this
    obtain ⟨s', st⟩ := r
    cases this
    rfl
  | ok r =>
    obtain ⟨o, nm, fl⟩ := r
    rw [ha.1 o nm fl hd]
    cases fl with
    | next =>
      have hb := h2 ⟨s.out ++ o, nm, s.inh⟩
      show (∀ o' ns' fl', (d2 nm >>= _) = _ → ns.run W _ = _) ∧ ∀ e, (d2 nm >>= _) = _ → (ns.run W _).2 = _
      cases hl : d2 nm with
      | error e =>
        refine ⟨fun o ns fl h' => (by cases h'), fun e' h' => ?_⟩
        cases h'
        exact hb.2 e hl
      | ok r =>
        obtain ⟨o2, ns2, fl2⟩ := r
        refine ⟨fun o ns fl h' => ?_, fun e' h' => (by cases h')⟩
        cases h'
        rw [hb.1 o2 ns2 fl2 hl, List.append_assoc]
    | cont =>
      refine ⟨fun o ns fl h' => ?_, fun e' h' => (by cases h')⟩
      cases h'
      rfl
    | brk =>
      refine ⟨fun o ns fl h' => ?_, fun e' h' => (by cases h')⟩
      cases h'
      rfl

theorem branch_agrees (W : World V NS) (c : Str) (p : Pos) {body : Nodes} {ps : Parts}
    {d1 d2 : NS → Except Err (Str × NS × Flow)} (h1 : Agrees (body.run W) d1) (h2 : Agrees (ps.run W) d2) :
    Agrees ((Parts.cons (some c) p body ps).run W) (fun ns => do
      let x ← W.eval c ns
      if W.truth x then d1 ns else d2 ns) := by
  intro s
  rw [Parts.run]
  dsimp only
  cases W.eval c s.ns with
  | error e =>
    refine ⟨fun o ns fl h' => (by cases h'), fun e' h' => ?_⟩
    cases h'
    rfl
  | ok x =>
    show (∀ o ns fl, (if W.truth x = true then d1 s.ns else d2 s.ns) = _ → _) ∧ ∀ e, (if W.truth x = true then d1 s.ns else d2 s.ns) = _ → _
    by_cases hx : W.truth x = true
    · simp only [hx, if_true]
      exact h1 s
    · simp only [hx, if_false, Bool.false_eq_true]
      exact h2 s

/-- Splitting chunks as the pieces of a template are concatenated. -/
theorem map_erase_append {cs : List Chunk} {a b : List Tok} (h : cs.map erase = a ++ b) :
    ∃ c1 c2, cs = c1 ++ c2 ∧ c1.map erase = a ∧ c2.map erase = b := List.map_eq_append_iff.1 h

theorem map_erase_code {cs : List Chunk} {k : Str} {b : List Tok} (h : cs.map erase = .code k :: b) :
    ∃ q c2, cs = .code k q :: c2 ∧ c2.map erase = b := by
  cases cs with
  | nil => cases h
  | cons c cs =>
    rw [List.map_cons, List.cons.injEq] at h
    cases c with
    | text _ => cases h.1
    | code k' q => cases h.1; exact ⟨q, cs, rfl, h.2⟩

mutual
theorem parse_tpl : ∀ (t : Tpl) (l : Bool), t.Ok l → ∀ cs : List Chunk, cs.map erase = t.toks →
    ∀ (rest : List Chunk) (f : ℕ), 3 * cs.length ≤ f →
    ∃ n : Node, parseExpr f l (cs ++ rest) = .ok (n, rest) ∧
      ∀ {V NS : Type} (W : World V NS), Agrees (n.run W) (t.render W)
  | .text s, l, _, cs, h, rest, f, hf => by
    rw [Tpl.toks] at h
    obtain ⟨c, cs', rfl⟩ : ∃ c cs', cs = c :: cs' := by
      cases cs with
      | nil => cases h
      | cons c cs => exact ⟨_, _, rfl⟩
    rw [List.map_cons, List.cons.injEq] at h
    obtain ⟨h1, h2⟩ := h
    rw [List.map_eq_nil_iff] at h2
    subst h2
    cases c with
    | code _ _ => cases h1
    | text s' =>
      cases h1
      obtain ⟨f, rfl⟩ : ∃ g, f = g + 1 := ⟨f - 1, by simp at hf; omega⟩
      refine ⟨.text s, by rw [List.singleton_append, parseExpr] <;> [rfl; omega], fun W s => ?_⟩
      simp only [Tpl.render]
      exact agrees_const W (fun s => by rw [Node.run]; rfl) s
  | .expr e, l, hok, cs, h, rest, f, hf => by
    rw [Tpl.toks] at h
    rw [Tpl.Ok] at hok
    obtain ⟨q, c2, rfl, h2⟩ := map_erase_code h
    rw [List.map_eq_nil_iff] at h2
    subst h2
    obtain ⟨f, rfl⟩ : ∃ g, f = g + 1 := ⟨f - 1, by simp at hf; omega⟩
    refine ⟨.expr q e, parseExpr_plain hok _ _ _ _, fun W s => ?_⟩
    simp only [Node.run, Tpl.render, evalExpr_eq]
    cases exprText W s.ns e with
    | error er =>
      refine ⟨fun o ns fl h' => (by cases h'), fun e' h' => ?_⟩
      cases h'
      rfl
    | ok t =>
      refine ⟨fun o ns fl h' => ?_, fun e' h' => (by cases h')⟩
      cases h'
      rfl
  | .py c, l, hok, cs, h, rest, f, hf => by
    rw [Tpl.toks] at h
    rw [Tpl.Ok] at hok
    obtain ⟨q, c2, rfl, h2⟩ := map_erase_code h
    rw [List.map_eq_nil_iff] at h2
    subst h2
    obtain ⟨f, rfl⟩ : ∃ g, f = g + 1 := ⟨f - 1, by simp at hf; omega⟩
    refine ⟨.py q c, parseExpr_py hok _ _ _ _, fun W s => ?_⟩
    simp only [Node.run, Tpl.render]
    cases W.exec c s.ns with
    | error er =>
      refine ⟨fun o ns fl h' => (by cases h'), fun e' h' => ?_⟩
      cases h'
      rfl
    | ok t =>
      refine ⟨fun o ns fl h' => ?_, fun e' h' => (by cases h')⟩
      cases h'
      rw [List.append_nil]
      rfl
  | .comment c, l, hok, cs, h, rest, f, hf => by
    rw [Tpl.toks] at h
    obtain ⟨q, c2, rfl, h2⟩ := map_erase_code h
    rw [List.map_eq_nil_iff] at h2
    subst h2
    obtain ⟨f, rfl⟩ : ∃ g, f = g + 1 := ⟨f - 1, by simp at hf; omega⟩
    refine ⟨.comment q, parseExpr_comment _ _ _ _ _, fun W s => ?_⟩
    simp only [Tpl.render]
    exact agrees_const W (fun s => by rw [Node.run, List.append_nil]; rfl) s
  | .cont, l, hok, cs, h, rest, f, hf => by
    rw [Tpl.toks] at h
    rw [Tpl.Ok] at hok
    subst hok
    obtain ⟨q, c2, rfl, h2⟩ := map_erase_code h
    rw [List.map_eq_nil_iff] at h2
    subst h2
    obtain ⟨f, rfl⟩ : ∃ g, f = g + 1 := ⟨f - 1, by simp at hf; omega⟩
    refine ⟨.cont q, parseExpr_cont _ _ _, fun W s => ?_⟩
    simp only [Tpl.render]
    exact agrees_const W (fun s => by rw [Node.run, List.append_nil]; rfl) s
  | .brk, l, hok, cs, h, rest, f, hf => by
    rw [Tpl.toks] at h
    rw [Tpl.Ok] at hok
    subst hok
    obtain ⟨q, c2, rfl, h2⟩ := map_erase_code h
    rw [List.map_eq_nil_iff] at h2
    subst h2
    obtain ⟨f, rfl⟩ : ∃ g, f = g + 1 := ⟨f - 1, by simp at hf; omega⟩
    refine ⟨.brk q, parseExpr_brk _ _ _, fun W s => ?_⟩
    simp only [Tpl.render]
    exact agrees_const W (fun s => by rw [Node.run, List.append_nil]; rfl) s
  | .loop v e body, l, hok, cs, h, rest, f, hf => by
    rw [Tpl.toks] at h
    rw [Tpl.Ok] at hok
    obtain ⟨hv, he, hbody⟩ := hok
    obtain ⟨q, c2, rfl, h2⟩ := map_erase_code h
    obtain ⟨c3, c4, rfl, h3, h4⟩ := map_erase_append h2
    obtain ⟨q', c5, rfl, h5⟩ := map_erase_code h4
    rw [List.map_eq_nil_iff] at h5
    subst h5
    obtain ⟨f, rfl⟩ : ∃ g, f = g + 1 := ⟨f - 1, by simp at hf; omega⟩
    obtain ⟨ns, hns, hrun⟩ := parse_tpls body true hbody c3 h3 (· == "endfor".toList) (Or.inl rfl) q "endfor".toList q'
      (by simp) rest f (by simp at hf; omega)
    refine ⟨.forIn q [v] e ns, ?_, fun W s => ?_⟩
    · rw [List.cons_append, parseExpr_loop hv he, List.append_assoc, List.singleton_append, hns]
      rfl
    · simp only [Node.run, Tpl.render]
      cases W.eval e s.ns with
      | error er =>
        refine ⟨fun o ns fl h' => (by cases h'), fun e' h' => ?_⟩
        cases h'
        rfl
      | ok x =>
        show (∀ o ns fl, (W.iter x >>= _) = _ → _) ∧ ∀ e, (W.iter x >>= _) = _ → _
        dsimp only
        cases W.iter x with
        | error er =>
          refine ⟨fun o ns fl h' => (by cases h'), fun e' h' => ?_⟩
          cases h'
          rfl
        | ok xs => exact forLoop_agrees W v (hrun W) xs s
  | .cond c body br, l, hok, cs, h, rest, f, hf => by
    rw [Tpl.toks] at h
    rw [Tpl.Ok] at hok
    obtain ⟨hc, hbody, hbr⟩ := hok
    obtain ⟨q, c2, rfl, h2⟩ := map_erase_code h
    obtain ⟨c3, c4, rfl, h3, h4⟩ := map_erase_append h2
    obtain ⟨f, rfl⟩ : ∃ g, f = g + 2 := ⟨f - 2, by simp at hf; omega⟩
    obtain ⟨k, q', c5, hc4, hk⟩ := branches_stop h4
    have hl : 1 ≤ c4.length := by rw [hc4]; simp
    simp only [List.length_cons, List.length_append] at hf
    obtain ⟨ns, hns, hrun⟩ := parse_tpls body l hbody c3 h3 stopIf (Or.inr rfl) q k q' hk (c5 ++ rest) f (by omega)
    obtain ⟨ps, hps, hrun'⟩ := parse_branches br l hbr c4 h4 q rest f (by omega)
    refine ⟨.cond q (.cons (some c) q ns ps), ?_, fun W s => ?_⟩
    · rw [List.cons_append, parseExpr_cond hc, parseCond_if hc]
      have e1 : c3 ++ c4 ++ rest = c3 ++ .code k q' :: (c5 ++ rest) := by rw [hc4]; simp
      have e2 : Chunk.code k q' :: (c5 ++ rest) = c4 ++ rest := by rw [hc4]; rfl
      rw [e1, hns]
      show Except.map _ (parseCond f l q (Chunk.code k q' :: (c5 ++ rest)) >>= _) = _
      rw [e2, hps]
      rfl
    · simp only [Node.run, Tpl.render]
      exact branch_agrees W c q (hrun W) (hrun' W) s
theorem parse_tpls : ∀ (t : Tpls) (l : Bool), t.Ok l → ∀ cs : List Chunk, cs.map erase = t.toks →
    ∀ stop : Str → Bool, IsStop stop → ∀ (p : Pos) (k : Str) (q : Pos), stop k = true →
    ∀ (rest : List Chunk) (f : ℕ), 3 * cs.length + 1 ≤ f →
    ∃ ns : Nodes, parseUntil f l stop p (cs ++ .code k q :: rest) = .ok (ns, .code k q :: rest) ∧
      ∀ {V NS : Type} (W : World V NS), Agrees (ns.run W) (t.render W)
  | .nil, l, _, cs, h, stop, hstop, p, k, q, hk, rest, f, hf => by
    rw [Tpls.toks, List.map_eq_nil_iff] at h
    subst h
    obtain ⟨f, rfl⟩ : ∃ g, f = g + 1 := ⟨f - 1, by omega⟩
    refine ⟨.nil, ?_, fun W s => ?_⟩
    · rw [List.nil_append, parseUntil, if_neg (by simp), if_pos (by exact hk)]
      rfl
    · simp only [Tpls.render]
      exact agrees_const W (fun s => by rw [Nodes.run, List.append_nil]; rfl) s
  | .cons t ts, l, hok, cs, h, stop, hstop, p, k, q, hk, rest, f, hf => by
    rw [Tpls.toks] at h
    rw [Tpls.Ok] at hok
    obtain ⟨c1, c2, rfl, h1, h2⟩ := map_erase_append h
    obtain ⟨f, rfl⟩ : ∃ g, f = g + 1 := ⟨f - 1, by omega⟩
    rw [List.length_append] at hf
    obtain ⟨hns, hne⟩ := not_stops hstop hok.1 h1 (c2 ++ .code k q :: rest)
    have hl : 1 ≤ c1.length := List.length_pos_iff.2 hne
    obtain ⟨n, hn, hrun⟩ := parse_tpl t l hok.1 c1 h1 (c2 ++ .code k q :: rest) f (by omega)
    obtain ⟨ns, hns', hrun'⟩ := parse_tpls ts l hok.2 c2 h2 stop hstop p k q hk rest f (by omega)
    refine ⟨.cons n ns, ?_, fun W s => ?_⟩
    · rw [List.append_assoc, parseUntil, if_neg (by simp), if_neg (by simp [hns]), hn]
      show (parseUntil f l stop p (c2 ++ .code k q :: rest) >>= _) = _
      rw [hns']
      rfl
    · have := cons_agrees W (hrun W) (hrun' W) s
      simp only [Tpls.render]
      exact this
theorem parse_branches : ∀ (b : Branches) (l : Bool), b.Ok l → ∀ cs : List Chunk, cs.map erase = b.toks →
    ∀ (p : Pos) (rest : List Chunk) (f : ℕ), 3 * cs.length ≤ f + 2 →
    ∃ ps : Parts, parseCond f l p (cs ++ rest) = .ok (ps, rest) ∧
      ∀ {V NS : Type} (W : World V NS), Agrees (ps.run W) (b.render W)
  | .none, l, _, cs, h, p, rest, f, hf => by
    rw [Branches.toks] at h
    obtain ⟨q, c2, rfl, h2⟩ := map_erase_code h
    rw [List.map_eq_nil_iff] at h2
    subst h2
    obtain ⟨f, rfl⟩ : ∃ g, f = g + 1 := ⟨f - 1, by simp at hf; omega⟩
    refine ⟨.nil, parseCond_endif _ _ _ _ _, fun W s => ?_⟩
    simp only [Branches.render]
    exact agrees_const W (fun s => by rw [Parts.run, List.append_nil]; rfl) s
  | .els body, l, hok, cs, h, p, rest, f, hf => by
    rw [Branches.toks] at h
    rw [Branches.Ok] at hok
    obtain ⟨q, c2, rfl, h2⟩ := map_erase_code h
    obtain ⟨c3, c4, rfl, h3, h4⟩ := map_erase_append h2
    obtain ⟨q', c5, rfl, h5⟩ := map_erase_code h4
    rw [List.map_eq_nil_iff] at h5
    subst h5
    obtain ⟨f, rfl⟩ : ∃ g, f = g + 2 := ⟨f - 2, by simp at hf; omega⟩
    obtain ⟨ns, hns, hrun⟩ := parse_tpls body l hok c3 h3 stopIf (Or.inr rfl) q "endif".toList q' (by simp [stopIf]) rest
      (f + 1) (by simp at hf; omega)
    refine ⟨.cons none q ns .nil, ?_, fun W s => ?_⟩
    · rw [List.cons_append, parseCond_else, List.append_assoc, List.singleton_append, hns]
      simp only [bind, Except.bind, parseCond_endif]
      rfl
    · simp only [Parts.run, Branches.render]
      exact hrun W s
  | .elif c body br, l, hok, cs, h, p, rest, f, hf => by
    rw [Branches.toks] at h
    rw [Branches.Ok] at hok
    obtain ⟨hc, hbody, hbr⟩ := hok
    obtain ⟨q, c2, rfl, h2⟩ := map_erase_code h
    obtain ⟨c3, c4, rfl, h3, h4⟩ := map_erase_append h2
    obtain ⟨f, rfl⟩ : ∃ g, f = g + 1 := ⟨f - 1, by simp at hf; omega⟩
    obtain ⟨k, q', c5, hc4, hk⟩ := branches_stop h4
    have hl : 1 ≤ c4.length := by rw [hc4]; simp
    simp only [List.length_cons, List.length_append] at hf
    obtain ⟨ns, hns, hrun⟩ := parse_tpls body l hbody c3 h3 stopIf (Or.inr rfl) q k q' hk (c5 ++ rest) f (by omega)
    obtain ⟨ps, hps, hrun'⟩ := parse_branches br l hbr c4 h4 p rest f (by omega)
    refine ⟨.cons (some c) q ns ps, ?_, fun W s => ?_⟩
    · rw [List.cons_append, parseCond_elif hc]
      have e1 : c3 ++ c4 ++ rest = c3 ++ .code k q' :: (c5 ++ rest) := by rw [hc4]; simp
      have e2 : Chunk.code k q' :: (c5 ++ rest) = c4 ++ rest := by rw [hc4]; rfl
      rw [e1, hns]
      show (parseCond f l p (Chunk.code k q' :: (c5 ++ rest)) >>= _) = _
      rw [e2, hps]
      rfl
    · simp only [Branches.render]
      exact branch_agrees W c q (hrun W) (hrun' W) s
end

theorem parseAll_tpls : ∀ (t : Tpls), t.Ok false → ∀ cs : List Chunk, cs.map erase = t.toks →
    ∀ f : ℕ, 3 * cs.length + 1 ≤ f →
    ∃ ns : Nodes, parseAll f cs = .ok ns ∧ ∀ {V NS : Type} (W : World V NS), Agrees (ns.run W) (t.render W)
  | .nil, _, cs, h, f, hf => by
    rw [Tpls.toks, List.map_eq_nil_iff] at h
    subst h
    refine ⟨.nil, by rw [parseAll]; rfl, fun W s => ?_⟩
    simp only [Tpls.render]
    exact agrees_const W (fun s => by rw [Nodes.run, List.append_nil]; rfl) s
  | .cons t ts, hok, cs, h, f, hf => by
    rw [Tpls.toks] at h
    rw [Tpls.Ok] at hok
    obtain ⟨c1, c2, rfl, h1, h2⟩ := map_erase_append h
    obtain ⟨f, rfl⟩ : ∃ g, f = g + 1 := ⟨f - 1, by omega⟩
    rw [List.length_append] at hf
    obtain ⟨_, hne⟩ := not_stops (Or.inr rfl) hok.1 h1 c2
    have hl : 1 ≤ c1.length := List.length_pos_iff.2 hne
    obtain ⟨n, hn, hrun⟩ := parse_tpl t false hok.1 c1 h1 c2 f (by omega)
    obtain ⟨ns, hns', hrun'⟩ := parseAll_tpls ts hok.2 c2 h2 f (by omega)
    refine ⟨.cons n ns, ?_, fun W s => ?_⟩
    · obtain ⟨c, c1', rfl⟩ := List.exists_cons_of_ne_nil hne
      rw [List.cons_append, parseAll, ← List.cons_append, hn]
      · show (parseAll f c2 >>= _) = _
        rw [hns']
        rfl
      · simp
    · have := cons_agrees W (hrun W) (hrun' W) s
      simp only [Tpls.render]
      exact this

/-! ### No `break` leaves a template -/

theorem loopText_next {f : V → NS → Except Err (Str × NS × Flow)} : ∀ {xs : List V} {ns : NS} {o : Str} {ns' : NS} {fl : Flow},
    loopText f xs ns = .ok (o, ns', fl) → fl = .next
  | [], ns, o, ns', fl, h => by cases h; rfl
  | x :: xs, ns, o, ns', fl, h => by
    rw [loopText] at h
    cases hx : f x ns with
    | error e => rw [hx] at h; cases h
    | ok r =>
      obtain ⟨o1, ns1, fl1⟩ := r
      rw [hx] at h
      have go : (do
          let (o', ns, fl) ← loopText f xs ns1
          pure (o1 ++ o', ns, fl) : Except Err (Str × NS × Flow)) = .ok (o, ns', fl) → fl = .next := by
        intro h
        cases hy : loopText f xs ns1 with
        | error e => rw [hy] at h; cases h
        | ok r =>
          obtain ⟨o2, ns2, fl2⟩ := r
          rw [hy] at h
          cases h
          exact loopText_next hy
      cases fl1 with
      | next => exact go h
      | cont => exact go h
      | brk => cases h; rfl

mutual
theorem tpl_next (W : World V NS) : ∀ {t : Tpl}, t.Ok false → ∀ {ns : NS} {o : Str} {ns' : NS} {fl : Flow},
    t.render W ns = .ok (o, ns', fl) → fl = .next
  | .text _, _, _, _, _, _, h => by rw [Tpl.render] at h; cases h; rfl
  | .expr e, _, ns, _, _, _, h => by
    rw [Tpl.render] at h
    cases he : exprText W ns e with
    | error e => rw [he] at h; cases h
    | ok t => rw [he] at h; cases h; rfl
  | .py c, _, ns, _, _, _, h => by
    rw [Tpl.render] at h
    cases he : W.exec c ns with
    | error e => rw [he] at h; cases h
    | ok t => rw [he] at h; cases h; rfl
  | .comment _, _, _, _, _, _, h => by rw [Tpl.render] at h; cases h; rfl
  | .cont, hok, _, _, _, _, _ => by rw [Tpl.Ok] at hok; cases hok
  | .brk, hok, _, _, _, _, _ => by rw [Tpl.Ok] at hok; cases hok
  | .loop v e body, _, ns, _, _, _, h => by
    rw [Tpl.render] at h
    cases he : W.eval e ns with
    | error e => rw [he] at h; cases h
    | ok x =>
      rw [he] at h
      change (W.iter x >>= _) = _ at h
      cases hx : W.iter x with
      | error e => rw [hx] at h; cases h
      | ok xs =>
        rw [hx] at h
        exact loopText_next h
  | .cond c body rest, hok, ns, _, _, _, h => by
    rw [Tpl.Ok] at hok
    rw [Tpl.render] at h
    cases he : W.eval c ns with
    | error e => rw [he] at h; cases h
    | ok x =>
      rw [he] at h
      change (if W.truth x = true then _ else _) = _ at h
      split_ifs at h
      · exact tpls_next W hok.2.1 h
      · exact branches_next W hok.2.2 h
theorem tpls_next (W : World V NS) : ∀ {t : Tpls}, t.Ok false → ∀ {ns : NS} {o : Str} {ns' : NS} {fl : Flow},
    t.render W ns = .ok (o, ns', fl) → fl = .next
  | .nil, _, _, _, _, _, h => by rw [Tpls.render] at h; cases h; rfl
  | .cons t ts, hok, ns, o, ns', fl, h => by
    rw [Tpls.Ok] at hok
    rw [Tpls.render] at h
    cases ht : t.render W ns with
    | error e => rw [ht] at h; cases h
    | ok r =>
      obtain ⟨o1, ns1, fl1⟩ := r
      have := tpl_next W hok.1 ht
      subst this
      rw [ht] at h
      change (ts.render W ns1 >>= _) = _ at h
      cases hs : ts.render W ns1 with
      | error e => rw [hs] at h; cases h
      | ok r =>
        obtain ⟨o2, ns2, fl2⟩ := r
        rw [hs] at h
        cases h
        exact tpls_next W hok.2 hs
theorem branches_next (W : World V NS) : ∀ {t : Branches}, t.Ok false → ∀ {ns : NS} {o : Str} {ns' : NS} {fl : Flow},
    t.render W ns = .ok (o, ns', fl) → fl = .next
  | .none, _, _, _, _, _, h => by rw [Branches.render] at h; cases h; rfl
  | .els body, hok, _, _, _, _, h => by
    rw [Branches.Ok] at hok
    rw [Branches.render] at h
    exact tpls_next W hok h
  | .elif c body rest, hok, ns, _, _, _, h => by
    rw [Branches.Ok] at hok
    rw [Branches.render] at h
    cases he : W.eval c ns with
    | error e => rw [he] at h; cases h
    | ok x =>
      rw [he] at h
      change (if W.truth x = true then _ else _) = _ at h
      split_ifs at h
      · exact tpls_next W hok.2.1 h
      · exact branches_next W hok.2.2 h
end

/-- The template engine produces what the template means. -/
theorem substitute_eq (W : World V NS) {s : Str} {cs : List Chunk} {t : Tpls} (hs : lex s = .ok cs)
    (h : cs.map erase = t.toks) (hok : t.Ok false) (ns : NS) :
    substitute W s ns = match t.render W ns with
      | .ok r => .ok r.1
      | .error e => .error (.python e) := by
  obtain ⟨nodes, hn, hrun⟩ := parseAll_tpls t hok cs h (depth cs) le_rfl
  have hp : parse s = .ok nodes := by
    unfold parse
    rw [hs]
    exact hn
  have hr := hrun W ⟨[], ns, none⟩
  unfold substitute
  rw [hp]
  show ((match nodes.run W ⟨[], ns, none⟩ with
    | (s, .ok) =>
      match s.inh with
      | some v => if W.truth v then throw (.template (0, 0)) else pure s.out
      | none => pure s.out
    | (_, .err e) => throw e
    | (_, _) => throw .assertion : Except TErr Str)) = _
  cases hd : t.render W ns with
  | error e =>
    have := hr.2 e hd
    generalize nodes.run W ⟨[], ns, none⟩ = r at this
    obtain ⟨s', st⟩ := r
    cases this
    rfl
  | ok r =>
    obtain ⟨o, ns', fl⟩ := r
    have hfl := tpls_next W hok hd
    subst hfl
    rw [hr.1 o ns' .next hd]
    rfl

/-! ### Errors of the parser -/

theorem chunks_positions {b : Str} {cs : List Chunk} (h : Chunks b cs) : ∀ {s : Str} {p : Pos}, Chunk.code s p ∈ cs →
    ∃ a z, source cs = a ++ z ∧ ['{', '{'] <:+ a ∧ p = posAfter (b ++ a) := by
  induction h with
  | nil => intro s p h; simp at h
  | last => intro s p h; simp at h
  | @code b s0 cs h0 hl _ ih =>
    intro s p h
    rcases List.mem_cons.1 h with h | h
    · cases h
      exact ⟨['{', '{'], s0 ++ ['}', '}'] ++ source cs, by simp [source], List.suffix_refl _, rfl⟩
    · obtain ⟨a, z, h1, h2, h3⟩ := ih h
      refine ⟨['{', '{'] ++ s0 ++ ['}', '}'] ++ a, z, by simp [source, h1], h2.trans (List.suffix_append _ _), ?_⟩
      rw [h3]; simp
  | @text b t s0 cs _ _ _ h0 hl _ ih =>
    intro s p h
    rcases List.mem_cons.1 h with h | h
    · cases h
    · rcases List.mem_cons.1 h with h | h
      · cases h
        exact ⟨t ++ ['{', '{'], s0 ++ ['}', '}'] ++ source cs, by simp [source], List.suffix_append _ _, by simp⟩
      · obtain ⟨a, z, h1, h2, h3⟩ := ih h
        refine ⟨t ++ ['{', '{'] ++ s0 ++ ['}', '}'] ++ a, z, by simp [source, h1], h2.trans (List.suffix_append _ _), ?_⟩
        rw [h3]; simp

theorem parse_error {s : Str} {e : TErr} (h : parse s = .error e) : (∀ e', e ≠ .python e') ∧
    ∀ p, e = .template p → ∃ a z, s = a ++ z ∧ (['{', '{'] <:+ a ∨ ['}', '}'] <:+ a) ∧ p = posAfter a := by
  unfold parse lex at h
  cases hr : lexRaw s with
  | error e' =>
    rw [hr] at h
    cases h
    obtain ⟨a, z, h1, h2, rfl⟩ := lexRaw_error hr
    refine ⟨by simp, ?_⟩
    intro p hp
    cases hp
    exact ⟨a, z, h1, h2, rfl⟩
  | ok cs =>
    rw [hr] at h
    change parseAll (depth (trimLex cs)) (trimLex cs) = .error e at h
    have hg := parseAll_good _ (trimLex cs) (le_refl (depth (trimLex cs)))
    rw [h] at hg
    obtain ⟨hs, hch⟩ := (lexRaw_iff s cs).1 hr
    cases e with
    | template p =>
      refine ⟨by simp, ?_⟩
      intro p' hp'
      cases hp'
      obtain ⟨c, hc⟩ := mem_positions.1 (show p ∈ positions (trimLex cs) from hg)
      obtain ⟨a, z, h1, h2, h3⟩ := chunks_positions hch (trimLex_code hc)
      exact ⟨a, z, by rw [← hs, h1], Or.inl h2, by simpa using h3⟩
    | python e' => exact absurd hg id
    | assertion => exact ⟨by simp, by simp⟩
    | value => exact ⟨by simp, by simp⟩
    | typeErr => exact ⟨by simp, by simp⟩
    | index => exact ⟨by simp, by simp⟩

end Interp.Tempita
