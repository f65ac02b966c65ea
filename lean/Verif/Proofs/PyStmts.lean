import Verif.Proofs.PyProgram

/-!
# The text of every statement is read as its syntax tree
-/

namespace Interp.PyParse
open Interp.Spec.PyLang Interp.Codegen Interp.Spec

theorem tok_head {t : Tok} (h : okTok t) : ∃ c r, spellTok t = c :: r ∧ c ≠ ' ' := by
  cases t with
  | name s => obtain ⟨c, r, h1, _, h2, _⟩ := h.head; exact ⟨c, r, h1, h2⟩
  | int n => obtain ⟨c, r, h1, h2⟩ := digits_cons n; exact ⟨c, r, h1, (digit_ne h2).1⟩
  | float n => obtain ⟨c, r, h1, h2⟩ := digits_cons n; exact ⟨c, r ++ ['.', '0'], by rw [spellTok, h1]; rfl, (digit_ne h2).1⟩
  | str s => exact h.elim
  | op o => cases o <;> exact ⟨_, _, rfl, by decide⟩

theorem mkLine {j : ℕ} {l : String} {C : Line} (t : Tok) (ps : List Piece)
    (h1 : l.toList = List.replicate j ' ' ++ spell (.tok t :: ps)) (h2 : chk (.tok t :: ps))
    (h3 : LineToks C (toksOf (.tok t :: ps))) : Line1 j l C := by
  refine ⟨_, h1, h2, fun r hr => ?_, h3⟩
  obtain ⟨c, s, hs, hc⟩ := tok_head h2.1
  simp only [spell, Piece.spell, hs, List.cons_append, List.cons.injEq] at hr
  exact hc hr.1

theorem mkSimples {j : ℕ} {l : String} (t : Tok) (ps : List Piece) (ss : List Simple) (trail : Bool)
    (h1 : l.toList = List.replicate j ' ' ++ spell (.tok t :: ps)) (h2 : chk (.tok t :: ps))
    (h3 : toksOf (.tok t :: ps) = simplesToks ss trail) (hn : ss ≠ []) (hw : ∀ s ∈ ss, wfSimple s) : Line1 j l (.simple ss) :=
  mkLine t ps h1 h2 (h3 ▸ .simple ss trail hn hw)

theorem mkSimple {j : ℕ} {l : String} {s : Simple} (t : Tok) (ps : List Piece)
    (h1 : l.toList = List.replicate j ' ' ++ spell (.tok t :: ps)) (h2 : chk (.tok t :: ps))
    (h3 : toksOf (.tok t :: ps) = simpleToks s) (hw : wfSimple s) : Line1 j l (.simple [s]) :=
  mkSimples t ps [s] false h1 h2 (by simpa [simplesToks] using h3) (by simp) (by simpa using hw)

/-- `k = ...` -/
theorem mkSet {j : ℕ} {l : String} {k : Key} {e : PExpr} (ps : List Piece) (hk : KeyOk k)
    (h1 : l.toList = List.replicate j ' ' ++ spell (nm k :: .sp :: op .eq :: .sp :: ps)) (h2 : chk ps)
    (h3 : toksOf ps = toks e) (hw : wf .expr e) : Line1 j l (.simple [set k e]) :=
  mkSimple _ _ h1 ⟨isName_key hk, rfl, trivial, rfl, h2⟩ (by simp [toksOf, Piece.toks, simpleToks, toks, h3]) ⟨trivial, hw⟩

@[local simp] theorem toString_string' (s : String) : toString s = s := rfl
@[local simp] theorem toDigits_0 : Nat.toDigits 10 0 = ['0'] := by decide
@[local simp] theorem toDigits_1 : Nat.toDigits 10 1 = ['1'] := by decide
@[local simp] theorem toDigits_2 : Nat.toDigits 10 2 = ['2'] := by decide
@[local simp] theorem toDigits_3 : Nat.toDigits 10 3 = ['3'] := by decide

/-- Text of pieces. -/
macro "txt" : tactic => `(tactic| simp [spell, Piece.spell, spellTok, spellOp, nameOf, Nat.repr, String.toList_append])
/-- Pieces are separated. -/
macro "ckk" : tactic => `(tactic| simp [chk, okTok, isName_dim, isName_u, isName_mu, isName_glob, isName_nVals, isName_out,
  isName_ix, isName_nn, isName_npts, isName_grid, isName_C, isName_points, isName_valTmp, isName_kk, isName_diff, isName_mode,
  loose_name, loose_int, loose_float, loose_sym, symbol, follow_nil, follow_sp, follow_op, isDot])
/-- Tokens. -/
macro "tkk" : tactic => `(tactic| simp [toksOf, Piece.toks, toks, L, simpleToks])
/-- Trees. -/
macro "wff" : tactic => `(tactic| simp [wf, level, opLevel, L, wfSimple])

theorem isName_shape : IsName shapeName := ⟨⟨_, _, rfl, by decide, by decide, by decide⟩, by decide, by decide⟩
theorem isName_search : IsName searchName := ⟨⟨_, _, rfl, by decide, by decide, by decide⟩, by decide, by decide⟩

abbrev shp : Piece := .tok (.name shapeName)

/-! ### Tuples -/

def interP : List (List Piece) → List Piece
  | [] => []
  | [a] => a
  | a :: as => a ++ op .comma :: .sp :: interP as

def tupP : List (List Piece) → List Piece
  | [] => [op .lpar, op .rpar]
  | [a] => op .lpar :: (a ++ [op .comma, op .rpar])
  | as => op .lpar :: (interP as ++ [op .rpar])

/-- Pieces that spell a text and are read as a tree, whatever follows. -/
structure PE1 (s : String) (ps : List Piece) (e : PExpr) : Prop where
  text : s.toList = spell ps
  chk : ∀ rest, follow rest = true → chk rest → chk (ps ++ rest)
  toks : toksOf ps = toks e
  wf : wf .expr e

theorem inter_pe {α : Type} (f : α → String) (g : α → List Piece) (h : α → PExpr) : ∀ (as : List α), as ≠ [] →
    (∀ a ∈ as, PE1 (f a) (g a) (h a)) →
    spell (interP (as.map g)) = (", ".intercalate (as.map f)).toList ∧
    (∀ rest, follow rest = true → chk rest → chk (interP (as.map g) ++ rest)) ∧
    toksOf (interP (as.map g)) = toks (L (as.map h)) ∧ wf .args (L (as.map h))
  | [], h, _ => absurd rfl h
  | [a], _, hp => by
    obtain ⟨h1, h2, h3, h4⟩ := hp a (by simp)
    refine ⟨by simp [interP, h1], by simpa [interP] using h2, ?_, ?_⟩
    · simp [interP, L, PyParse.toks, h3]
    · exact ⟨h4, trivial⟩
  | a :: b :: as, _, hp => by
    obtain ⟨h1, h2, h3, h4⟩ := hp a (by simp)
    obtain ⟨i1, i2, i3, i4⟩ := inter_pe f g h (b :: as) (by simp) (fun x hx => hp x (by simp [hx]))
    have e : interP ((a :: b :: as).map g) = g a ++ op .comma :: .sp :: interP ((b :: as).map g) := rfl
    refine ⟨?_, ?_, ?_, ⟨h4, i4⟩⟩
    · rw [e, spell_append, spell, spell, i1, ← h1, List.map_cons, List.map_cons, List.map_cons, String.intercalate_cons_cons]
      simp [Piece.spell, spellTok, spellOp, String.toList_append]
    · intro rest hf hr
      rw [e, List.append_assoc]
      exact h2 _ rfl ⟨trivial, rfl, i2 rest hf hr⟩
    · rw [e, toksOf_append, h3, toksOf, toksOf, i3, show (a :: b :: as).map h = h a :: (b :: as).map h from rfl, L,
        toks_cons _ _ (by simp [L])]
      rfl

theorem tup_pe {α : Type} (f : α → String) (g : α → List Piece) (h : α → PExpr) (as : List α)
    (hp : ∀ a ∈ as, PE1 (f a) (g a) (h a)) : PE1 (Text.tuple (as.map f)) (tupP (as.map g)) (tupA (as.map h)) := by
  match as, hp with
  | [], _ =>
    refine ⟨show (Text.tuple []).toList = spell (tupP []) by decide, fun rest hf hr => ?_, rfl, ?_⟩
    · exact ⟨trivial, rfl, trivial, rfl, hr⟩
    · simp [tupA, wf]
  | [a], hp =>
    obtain ⟨h1, h2, h3, h4⟩ := hp a (by simp)
    refine ⟨?_, ?_, ?_, ?_⟩
    · simp [Text.tuple, tupP, spell_append, spell, Piece.spell, spellTok, spellOp, String.toList_append, h1]
    · intro rest hf hr
      have := h2 (op .comma :: op .rpar :: rest) rfl ⟨trivial, rfl, trivial, rfl, hr⟩
      simpa [tupP, chk, okTok, loose_sym, symbol] using this
    · simp [tupP, toksOf, Piece.toks, toksOf_append, h3, tupA, toks, L]
    · simp [tupA, L, wf, h4]
  | a :: b :: as, hp =>
    obtain ⟨i1, i2, i3, i4⟩ := inter_pe f g h (a :: b :: as) (by simp) hp
    refine ⟨?_, ?_, ?_, ?_⟩
    · simp only [Text.tuple, tupP, spell, List.map_cons, spell_append]
      simp only [List.map_cons] at i1
      rw [i1]
      simp [Piece.spell, spellTok, spellOp, String.toList_append]
    · intro rest hf hr
      have := i2 (op .rpar :: rest) rfl ⟨trivial, rfl, hr⟩
      simpa [tupP, chk, okTok, loose_sym, symbol] using this
    · simp only [tupP, toksOf, List.map_cons, toksOf_append, tupA, toks]
      simp only [List.map_cons] at i3
      rw [i3]; rfl
    · simp only [List.map_cons] at i4
      refine ⟨i4, by simp [L], by simp [L]⟩

theorem int_pe (n : ℕ) : PE1 (toString n) [it n] (.int n) :=
  ⟨by simp [spell, Piece.spell, spellTok, Nat.repr], fun rest hf hr => ⟨trivial, by rw [loose_int]; exact hf, hr⟩, rfl, trivial⟩

def ordersP : Option (List (List ℕ)) → List Piece
  | none => [gb .none]
  | some os => tupP (os.map fun o => tupP (o.map fun n => [it n]))

theorem orders_pe : ∀ (o : Option (List (List ℕ))), PE1 (Text.orders o) (ordersP o) (ordersA o)
  | none => ⟨by decide, fun rest hf hr => ⟨isName_glob _, by rw [loose_name, Bool.or_eq_true]; exact Or.inl hf, hr⟩, rfl, trivial⟩
  | some os => tup_pe _ _ _ os fun o _ => by
      have := tup_pe (fun n : ℕ => toString n) (fun n => [it n]) PExpr.int o fun n _ => int_pe n
      exact this

/-! ### Single lines -/

section
variable {cfg : Cfg}

theorem line_readNVals (d : ℕ) : Line1 0 s!"n_vals = C.shape[{d}]" (.simple [set .nVals (at1 (.attr (v .C) shapeName) (.int d))]) :=
  mkSet [nm .C, op .dot, shp, op .lbrack, it d, op .rbrack] trivial (by txt) (by ckk; exact isName_shape) (by tkk) (by wff)

theorem line_zeros : Line1 0 "out = zeros(n_vals)" (.simple [set .out (.call (gl .zeros) (L [v .nVals]))]) :=
  mkSet [gb .zeros, op .lpar, nm .nVals, op .rpar] trivial (by decide) (by ckk) (by tkk) (by wff)

theorem line_zeros2 (m : ℕ) : Line1 0 s!"out = zeros((n_vals, {m}))"
    (.simple [set .out (.call (gl .zeros) (L [.tuple (L [v .nVals, .int m]) false]))]) :=
  mkSet [gb .zeros, op .lpar, op .lpar, nm .nVals, op .comma, .sp, it m, op .rpar, op .rpar] trivial (by txt) (by ckk) (by tkk) (by wff)

theorem line_zeros1 (m : ℕ) : Line1 0 s!"out = zeros({m})" (.simple [set .out (.call (gl .zeros) (L [.int m]))]) :=
  mkSet [gb .zeros, op .lpar, it m, op .rpar] trivial (by txt) (by ckk) (by tkk) (by wff)

theorem line_alloc (o : Option (List (List ℕ))) : Line1 0 s!"out = allocate_output(grid, C, points, {Text.orders o})"
    (.simple [set .out (.call (gl .allocateOutput) (L [v .grid, v .C, v .points, ordersA o]))]) := by
  obtain ⟨h1, h2, h3, h4⟩ := orders_pe o
  refine mkSet ([gb .allocateOutput, op .lpar, nm .grid, op .comma, .sp, nm .C, op .comma, .sp, nm .points, op .comma, .sp]
    ++ ordersP o ++ [op .rpar]) trivial ?_ ?_ ?_ ?_
  · simp [spell, spell_append, Piece.spell, spellTok, spellOp, nameOf, String.toList_append, h1]
  · have := h2 [op .rpar] rfl ⟨trivial, rfl, trivial⟩
    simp only [List.cons_append, List.nil_append]
    ckk
    exact this
  · simp [toksOf, toksOf_append, Piece.toks, toks, L, h3]
  · simp [wf, level, L, h4]

theorem line_a (i : ℕ) : Line1 0 s!"a_{i} = grid[{i}][0]" (.simple [set (.dim i .a) (at1 (at1 (v .grid) (.int i)) (.int 0))]) :=
  mkSet [nm .grid, op .lbrack, it i, op .rbrack, op .lbrack, it 0, op .rbrack] trivial (by txt) (by ckk) (by tkk) (by wff)

theorem line_b (i : ℕ) : Line1 0 s!"b_{i} = grid[{i}][1]" (.simple [set (.dim i .b) (at1 (at1 (v .grid) (.int i)) (.int 1))]) :=
  mkSet [nm .grid, op .lbrack, it i, op .rbrack, op .lbrack, it 1, op .rbrack] trivial (by txt) (by ckk) (by tkk) (by wff)

theorem line_n (i : ℕ) : Line1 0 s!"n_{i} = grid[{i}][2]" (.simple [set (.dim i .n) (at1 (at1 (v .grid) (.int i)) (.int 2))]) :=
  mkSet [nm .grid, op .lbrack, it i, op .rbrack, op .lbrack, it 2, op .rbrack] trivial (by txt) (by ckk) (by tkk) (by wff)

theorem line_delta (i : ℕ) : Line1 0 s!"δ_{i} = (n_{i}-1.0)/(b_{i}-a_{i})"
    (.simple [set (.dim i .delta)
      (.bin .slash (.paren (.bin .minus (vd i .n) (.float 1))) (.paren (.bin .minus (vd i .b) (vd i .a))))]) :=
  mkSet [op .lpar, dm i .n, op .minus, fl 1, op .rpar, op .slash, op .lpar, dm i .b, op .minus, dm i .a, op .rpar]
    trivial (by txt) (by ckk) (by tkk) (by wff)

theorem line_gc (i : ℕ) : Line1 0 s!"gc_{i} = grid[{i}]" (.simple [set (.dim i .gc) (at1 (v .grid) (.int i))]) :=
  mkSet [nm .grid, op .lbrack, it i, op .rbrack] trivial (by txt) (by ckk) (by tkk) (by wff)

theorem line_N (i : ℕ) : Line1 0 s!"N_{i} = gc_{i}.shape[0]"
    (.simple [set (.dim i .N) (at1 (.attr (vd i .gc) shapeName) (.int 0))]) :=
  mkSet [dm i .gc, op .dot, shp, op .lbrack, it 0, op .rbrack] trivial (by txt) (by ckk; exact isName_shape) (by tkk) (by wff)

theorem line_a' (i : ℕ) : Line1 0 s!"a_{i} = gc_{i}[0]" (.simple [set (.dim i .a) (at1 (vd i .gc) (.int 0))]) :=
  mkSet [dm i .gc, op .lbrack, it 0, op .rbrack] trivial (by txt) (by ckk) (by tkk) (by wff)

theorem line_b' (i : ℕ) : Line1 0 s!"b_{i} = gc_{i}[N_{i}-1]"
    (.simple [set (.dim i .b) (at1 (vd i .gc) (.bin .minus (vd i .N) (.int 1)))]) :=
  mkSet [dm i .gc, op .lbrack, dm i .N, op .minus, it 1, op .rbrack] trivial (by txt) (by ckk) (by tkk) (by wff)

theorem line_x (i : ℕ) : Line1 0 s!"x_{i} = points[{Text.row cfg ","}{i}]"
    (.simple [set (.dim i .x) (.index (v .points) (rowA cfg (.cons (.int i) .nil)))]) := by
  cases h : cfg.vectorized with
  | false =>
    exact mkSet [nm .points, op .lbrack, it i, op .rbrack] trivial (by simp [Text.row, h]; txt) (by ckk)
      (by simp [rowA, h]; tkk) (by simp [rowA, h]; wff)
  | true =>
    exact mkSet [nm .points, op .lbrack, nm .nn, op .comma, it i, op .rbrack] trivial (by simp [Text.row, h]; txt) (by ckk)
      (by simp [rowA, h]; tkk) (by simp [rowA, h]; wff)

theorem line_clamp (i : ℕ) : Line1 0 s!"x_{i} = max(a_{i}, min(x_{i}, b_{i}))"
    (.simple [set (.dim i .x) (.call (gl .max) (L [vd i .a, .call (gl .min) (L [vd i .x, vd i .b])]))]) :=
  mkSet [gb .max, op .lpar, dm i .a, op .comma, .sp, gb .min, op .lpar, dm i .x, op .comma, .sp, dm i .b, op .rpar, op .rpar]
    trivial (by txt) (by ckk) (by tkk) (by wff)

theorem line_guard (i : ℕ) : Line1 0 s!"if (x_{i}<a_{i}) or (x_{i}>b_{i}):"
    (.header (.ifH (.bin .kOr (.paren (.bin .lt (vd i .x) (vd i .a))) (.paren (.bin .gt (vd i .x) (vd i .b)))))) :=
  mkLine (.op .kIf) [.sp, op .lpar, dm i .x, op .lt, dm i .a, op .rpar, .sp, op .kOr, .sp, op .lpar, dm i .x, op .gt, dm i .b,
    op .rpar, op .colon] (by txt) (by ckk) (.ifH _ (by wff))

theorem line_u (i : ℕ) : Line1 0 s!"u_{i} = (x_{i} - a_{i})*δ_{i}"
    (.simple [set (.u i) (.bin .star (.paren (.bin .minus (vd i .x) (vd i .a))) (vd i .delta))]) :=
  mkSet [op .lpar, dm i .x, .sp, op .minus, .sp, dm i .a, op .rpar, op .star, dm i .delta] trivial (by txt) (by ckk) (by tkk) (by wff)

theorem line_floor (i : ℕ) : Line1 0 s!"i_{i} = int( floor( u_{i} ) )"
    (.simple [set (.dim i .idx) (.call (gl .int) (L [.call (gl .floor) (L [v (.u i)])]))]) :=
  mkSet [gb .int, op .lpar, .sp, gb .floor, op .lpar, .sp, nm (.u i), .sp, op .rpar, .sp, op .rpar] trivial (by txt) (by ckk)
    (by tkk) (by wff)

theorem line_cell (i : ℕ) : Line1 0 s!"i_{i} = max( min(i_{i},n_{i}-2), 0 )"
    (.simple [set (.dim i .idx)
      (.call (gl .max) (L [.call (gl .min) (L [vd i .idx, .bin .minus (vd i .n) (.int 2)]), .int 0]))]) :=
  mkSet [gb .max, op .lpar, .sp, gb .min, op .lpar, dm i .idx, op .comma, dm i .n, op .minus, it 2, op .rpar, op .comma, .sp,
    it 0, .sp, op .rpar] trivial (by txt) (by ckk) (by tkk) (by wff)

theorem line_lam (i : ℕ) : Line1 0 s!"λ_{i} = u_{i}-i_{i}"
    (.simple [set (.dim i .lam) (.bin .minus (v (.u i)) (vd i .idx))]) :=
  mkSet [nm (.u i), op .minus, dm i .idx] trivial (by txt) (by ckk) (by tkk) (by wff)

theorem line_search (i : ℕ) : Line1 0 s!"i_{i} = int(np.searchsorted(gc_{i}, x_{i}))-1"
    (.simple [set (.dim i .idx)
      (.bin .minus (.call (gl .int) (L [.call (.attr (gl .np) searchName) (L [vd i .gc, vd i .x])])) (.int 1))]) :=
  mkSet [gb .int, op .lpar, gb .np, op .dot, .tok (.name searchName), op .lpar, dm i .gc, op .comma, .sp, dm i .x, op .rpar,
    op .rpar, op .minus, it 1] trivial (by txt) (by ckk; exact isName_search) (by tkk) (by wff)

theorem line_cell' (i : ℕ) : Line1 0 s!"i_{i} = min(max(i_{i}, 0), N_{i}-2)"
    (.simple [set (.dim i .idx)
      (.call (gl .min) (L [.call (gl .max) (L [vd i .idx, .int 0]), .bin .minus (vd i .N) (.int 2)]))]) :=
  mkSet [gb .min, op .lpar, gb .max, op .lpar, dm i .idx, op .comma, .sp, it 0, op .rpar, op .comma, .sp, dm i .N, op .minus,
    it 2, op .rpar] trivial (by txt) (by ckk) (by tkk) (by wff)

theorem line_delta' (i : ℕ) : Line1 0 s!"δ_{i} = (gc_{i}[i_{i}+1]-gc_{i}[i_{i}])"
    (.simple [set (.dim i .delta) (.paren (.bin .minus (at1 (vd i .gc) (.bin .plus (vd i .idx) (.int 1)))
      (at1 (vd i .gc) (vd i .idx))))]) :=
  mkSet [op .lpar, dm i .gc, op .lbrack, dm i .idx, op .plus, it 1, op .rbrack, op .minus, dm i .gc, op .lbrack, dm i .idx,
    op .rbrack, op .rpar] trivial (by txt) (by ckk) (by tkk) (by wff)

theorem line_lam' (i : ℕ) : Line1 0 s!"λ_{i} = (x_{i}-gc_{i}[i_{i}])/δ_{i}"
    (.simple [set (.dim i .lam) (.bin .slash (.paren (.bin .minus (vd i .x) (at1 (vd i .gc) (vd i .idx)))) (vd i .delta))]) :=
  mkSet [op .lpar, dm i .x, op .minus, dm i .gc, op .lbrack, dm i .idx, op .rbrack, op .rpar, op .slash, dm i .delta]
    trivial (by txt) (by ckk) (by tkk) (by wff)

theorem line_ret : Line1 0 "return out" (.simple [.ret (v .out)]) :=
  mkSimple (.op .kReturn) [.sp, nm .out] (by decide) (by ckk) (by tkk) trivial

theorem line_retVal : Line1 0 "return val" (.simple [.ret (v .valTmp)]) :=
  mkSimple (.op .kReturn) [.sp, nm .valTmp] (by decide) (by ckk) (by tkk) trivial

theorem line_for : Line1 0 "for i_x in range(n_vals):" (.header (.forH (nameOf .ix) (.call (gl .range) (L [v .nVals])))) :=
  mkLine (.op .kFor) [.sp, nm .ix, .sp, op .kIn, .sp, gb .range, op .lpar, nm .nVals, op .rpar, op .colon] (by decide) (by ckk)
    (.forH _ _ (by wff))

theorem line_forN : Line1 0 "for nn in range(N):" (.header (.forH (nameOf .nn) (.call (gl .range) (L [v .npts])))) :=
  mkLine (.op .kFor) [.sp, nm .nn, .sp, op .kIn, .sp, gb .range, op .lpar, nm .npts, op .rpar, op .colon] (by decide) (by ckk)
    (.forH _ _ (by wff))

theorem line_npts : Line1 0 "N = points.shape[0]" (.simple [set .npts (at1 (.attr (v .points) shapeName) (.int 0))]) :=
  mkSet [nm .points, op .dot, shp, op .lbrack, it 0, op .rbrack] trivial (by decide) (by ckk; exact isName_shape) (by tkk) (by wff)

theorem line_doc : Line1 0 "\"This is my docstring\"" (.simple [.expr (.str docText)]) := by
  refine ⟨[.str '"' docText], by decide, ⟨Or.inl rfl, by decide, by decide, trivial⟩, ?_, ?_⟩
  · intro r hr
    simp [spell, Piece.spell] at hr
  · exact .simple [.expr (.str docText)] false (by simp) (by simp [wfSimple, wf])

theorem line_def : Line1 0 "def eval_spline(grid, C, points, out=None, k=1, diff=\"None\", extrap_mode='linear'):"
    (.header (.defH funName params)) :=
  mkLine (.op .kDef) [.sp, .tok (.name funName), op .lpar, nm .grid, op .comma, .sp, nm .C, op .comma, .sp, nm .points, op .comma, .sp,
    nm .out, op .eq, gb .none, op .comma, .sp, nm .kk, op .eq, it 1, op .comma, .sp, nm .diff, op .eq, .str '"' ['N', 'o', 'n', 'e'],
    op .comma, .sp, nm .mode, op .eq, .str '\'' ['l', 'i', 'n', 'e', 'a', 'r'], op .rpar, op .colon] (by decide)
    (by ckk; exact ⟨⟨_, _, rfl, by decide, by decide, by decide⟩, by decide, by decide⟩)
    (.defH _ _ (by simp [params]) (by
      intro p hp e he
      simp only [params, List.mem_cons, List.not_mem_nil, or_false] at hp
      rcases hp with rfl | rfl | rfl | rfl | rfl | rfl | rfl <;> simp at he <;> subst he <;> trivial))

/-! ### Blending -/

theorem line_phi0 (l i j : ℕ) : Line1 0 s!"{Text.phi l i j}= 0.0" (.simple [set (.dim i (.phi l j)) (.float 0)]) :=
  mkSimple (.name (nameOf (.dim i (.phi l j)))) [op .eq, .sp, fl 0]
    (by simp [phi_name, spell, Piece.spell, spellTok, spellOp, String.toList_append]) (by ckk) (by tkk) (by wff)

theorem line_mu (l i : ℕ) : Line1 0
    (if l = 0 then s!"μ_{i}_0 = λ_{i}*λ_{i}*λ_{i};  μ_{i}_1 = λ_{i}*λ_{i};  μ_{i}_2 = λ_{i};  μ_{i}_3 = 1.0;"
     else s!"μ_{i}_0 = 3*λ_{i}*λ_{i}*δ_{i};  μ_{i}_1 = 2*λ_{i}*δ_{i};  μ_{i}_2 = δ_{i};  μ_{i}_3 = 0.0;")
    (.simple (muA l i)) := by
  by_cases hl : l = 0
  · rw [if_pos hl, muA, if_pos hl]
    exact mkSimples (.name (nameOf (.mu i 0))) [.sp, op .eq, .sp, dm i .lam, op .star, dm i .lam, op .star, dm i .lam, op .semi, .sp, .sp,
      nm (.mu i 1), .sp, op .eq, .sp, dm i .lam, op .star, dm i .lam, op .semi, .sp, .sp,
      nm (.mu i 2), .sp, op .eq, .sp, dm i .lam, op .semi, .sp, .sp, nm (.mu i 3), .sp, op .eq, .sp, fl 1, op .semi] _ true
      (by txt) (by ckk) (by simp [simplesToks]; tkk) (by simp) (by simp; wff)
  · rw [if_neg hl, muA, if_neg hl]
    exact mkSimples (.name (nameOf (.mu i 0))) [.sp, op .eq, .sp, it 3, op .star, dm i .lam, op .star, dm i .lam, op .star, dm i .delta,
      op .semi, .sp, .sp,
      nm (.mu i 1), .sp, op .eq, .sp, it 2, op .star, dm i .lam, op .star, dm i .delta, op .semi, .sp, .sp,
      nm (.mu i 2), .sp, op .eq, .sp, dm i .delta, op .semi, .sp, .sp, nm (.mu i 3), .sp, op .eq, .sp, fl 0, op .semi] _ true
      (by txt) (by ckk) (by simp [simplesToks]; tkk) (by simp) (by simp; wff)

theorem line_if (i : ℕ) : Line1 0 s!"if λ_{i} < 0:" (.header (.ifH (.bin .lt (vd i .lam) (.int 0)))) :=
  mkLine (.op .kIf) [.sp, dm i .lam, .sp, op .lt, .sp, it 0, op .colon] (by txt) (by ckk) (.ifH _ (by wff))

theorem line_elif (i : ℕ) : Line1 0 s!"elif λ_{i} > 1:" (.header (.elifH (.bin .gt (vd i .lam) (.int 1)))) :=
  mkLine (.op .kElif) [.sp, dm i .lam, .sp, op .gt, .sp, it 1, op .colon] (by txt) (by ckk) (.elifH _ (by wff))

theorem line_else : Line1 0 "else:" (.header .elseH) :=
  mkLine (.op .kElse) [op .colon] (by decide) (by ckk) .elseH

abbrev cdP (g : Glob) (j m : ℕ) : List Piece := [gb g, op .lbrack, it j, op .comma, it m, op .rbrack]

theorem line_low (l i j : ℕ) : Line1 4 s!"    {Text.phi l i j} = dCd[{j},3]*μ_{i}_2 + Cd[{j},3]*μ_{i}_3" (.simple [lowA l i j]) :=
  mkSet (cdP .dCd j 3 ++ [op .star, nm (.mu i 2), .sp, op .plus, .sp] ++ cdP .Cd j 3 ++ [op .star, nm (.mu i 3)]) trivial
    (by simp [phi_name, spell, Piece.spell, spellTok, spellOp, String.toList_append, List.replicate_succ, nameOf, Nat.repr])
    (by simp; ckk) (by tkk) (by wff)

theorem line_high (l i j : ℕ) : Line1 4
    (s!"    {Text.phi l i j} = (3*Cd[{j},0] + 2*Cd[{j},1] + Cd[{j},2])*(μ_{i}_2-μ_{i}_3)"
        ++ s!" + (Cd[{j},0]+Cd[{j},1]+Cd[{j},2]+Cd[{j},3])*μ_{i}_3") (.simple [highA l i j]) :=
  mkSet ([op .lpar, it 3, op .star] ++ cdP .Cd j 0 ++ [.sp, op .plus, .sp, it 2, op .star] ++ cdP .Cd j 1 ++ [.sp, op .plus, .sp]
      ++ cdP .Cd j 2 ++ [op .rpar, op .star, op .lpar, nm (.mu i 2), op .minus, nm (.mu i 3), op .rpar, .sp, op .plus, .sp, op .lpar]
      ++ cdP .Cd j 0 ++ [op .plus] ++ cdP .Cd j 1 ++ [op .plus] ++ cdP .Cd j 2 ++ [op .plus] ++ cdP .Cd j 3
      ++ [op .rpar, op .star, nm (.mu i 3)]) trivial
    (by simp [phi_name, spell, Piece.spell, spellTok, spellOp, String.toList_append, List.replicate_succ, nameOf, Nat.repr])
    (by simp; ckk) (by tkk) (by wff)

theorem line_mid (l i j : ℕ) : Line1 4
    s!"    {Text.phi l i j} = (Cd[{j},0]*μ_{i}_0 + Cd[{j},1]*μ_{i}_1 + Cd[{j},2]*μ_{i}_2 + Cd[{j},3]*μ_{i}_3)"
    (.simple [midA l i j]) :=
  mkSet ([op .lpar] ++ cdP .Cd j 0 ++ [op .star, nm (.mu i 0), .sp, op .plus, .sp] ++ cdP .Cd j 1
      ++ [op .star, nm (.mu i 1), .sp, op .plus, .sp] ++ cdP .Cd j 2 ++ [op .star, nm (.mu i 2), .sp, op .plus, .sp] ++ cdP .Cd j 3
      ++ [op .star, nm (.mu i 3), op .rpar]) trivial
    (by simp [phi_name, spell, Piece.spell, spellTok, spellOp, String.toList_append, List.replicate_succ, nameOf, Nat.repr])
    (by simp; ckk) (by tkk) (by wff)

theorem means_one {j k m : ℕ} {l : String} {ss : List Simple} (h : Line1 j l (.simple ss)) (hm : k + j = m) :
    Means m [padl k l] (lines [ss]) := .cons h hm (.nil _)

theorem means_blend3 (k l i : ℕ) : Means k ((Text.blend3 l i).map (padl k)) (blend3A l i) := by
  have r4 : ∀ (f : ℕ → List Simple), lines ((List.range 4).map f) ≠ .nil := by intro f; simp [List.range_succ, lines]
  have h0 : Means k [padl k (if l = 0 then s!"μ_{i}_0 = λ_{i}*λ_{i}*λ_{i};  μ_{i}_1 = λ_{i}*λ_{i};  μ_{i}_2 = λ_{i};  μ_{i}_3 = 1.0;"
     else s!"μ_{i}_0 = 3*λ_{i}*λ_{i}*δ_{i};  μ_{i}_1 = 2*λ_{i}*δ_{i};  μ_{i}_2 = δ_{i};  μ_{i}_3 = 0.0;")] (lines [muA l i]) :=
    means_one (line_mu l i) rfl
  have h1 := Means.lines (k := k) (m := k) _ _ (List.range 4) (fun j _ => line_phi0 l i j) rfl
  have h2 := Means.lines (k := k) (m := k + 4) _ _ (List.range 4) (fun j _ => line_low l i j) rfl
  have h3 := Means.lines (k := k) (m := k + 4) _ _ (List.range 4) (fun j _ => line_high l i j) rfl
  have h4 := Means.lines (k := k) (m := k + 4) _ _ (List.range 4) (fun j _ => line_mid l i j) rfl
  have h5 := Means.block (line_if i) h2 (r4 _) (Means.block (line_elif i) h3 (r4 _) (Means.block line_else h4 (r4 _) (.nil _)))
  have h6 := (h0.append h1).append h5
  rw [blend3A, lines_append]
  convert h6 using 1
  simp only [Text.blend3, List.map_append, List.map_cons, List.map_nil, List.append_assoc, List.map_map, List.cons_append,
    List.nil_append, List.append_nil]
  rfl

theorem means_blend1 (k l i : ℕ) : Means k ((Text.blend1 l i).map (padl k)) (lines (blend1A l i)) := by
  unfold Text.blend1 blend1A
  split_ifs with h0 h1
  · exact Means.cons (j := 0) (mkSet [fl 1, .sp, op .minus, .sp, dm i .lam] trivial (by txt) (by ckk) (by tkk) (by wff)) rfl
      (Means.cons (j := 0) (mkSet [dm i .lam] trivial (by txt) (by ckk) (by tkk) (by wff)) rfl (.nil _))
  · exact Means.cons (j := 0) (mkSet [op .minus, fl 1, op .slash, dm i .delta] trivial (by txt) (by ckk) (by tkk) (by wff)) rfl
      (Means.cons (j := 0) (mkSet [fl 1, op .slash, dm i .delta] trivial (by txt) (by ckk) (by tkk) (by wff)) rfl (.nil _))
  · obtain ⟨l, rfl⟩ : ∃ m, l = m + 2 := ⟨l - 2, by omega⟩
    exact Means.cons (j := 0) (mkSet [fl 0] trivial (by txt) (by ckk) (by tkk) (by wff)) rfl
      (Means.cons (j := 0) (mkSet [fl 0] trivial (by txt) (by ckk) (by tkk) (by wff)) rfl (.nil _))

/-! ### Stores -/

theorem chk_expr' {e : TExpr} (h : tGood e) : chk (exprP e) := by simpa using expr_chk e [] h rfl trivial

theorem line_val {j : ℕ} {n : Str} (hn : ∀ c ∈ n, c.isDigit = true) {e : TExpr} (he : tGood e) (l : String)
    (hl : l.toList = List.replicate j ' ' ++ ('v' :: 'a' :: 'l' :: '_' :: (n ++ ' ' :: '=' :: ' ' :: (Text.expr e).toList))) :
    Line1 j l (.simple [set (.val n) (exprA e)]) :=
  mkSet (exprP e) hn (by rw [hl]; simp [spell, expr_spell e he, Piece.spell, spellTok, spellOp, nameOf]) (chk_expr' he)
    (expr_toks e he) (expr_wf e he)

theorem line_valTmp {e : TExpr} (he : tGood e) : Line1 0 s!"val = {Text.expr e}" (.simple [set .valTmp (exprA e)]) :=
  mkSet (exprP e) trivial (by simp [spell, expr_spell e he, Piece.spell, spellTok, spellOp, nameOf, String.toList_append])
    (chk_expr' he) (expr_toks e he) (expr_wf e he)

/-- `out[...] = ...` -/
theorem mkOut {j : ℕ} {l : String} {es e : PExpr} (sp ps : List Piece)
    (h1 : l.toList = List.replicate j ' ' ++ 'o' :: 'u' :: 't' :: '[' :: (spell sp ++ ']' :: ' ' :: '=' :: ' ' :: spell ps))
    (hs : ∀ rest, follow rest = true → chk rest → chk (sp ++ rest)) (hst : toksOf sp = toks es) (hsw : wf .subs es) (hsn : es ≠ .nil)
    (h2 : chk ps) (h3 : toksOf ps = toks e) (hw : wf .expr e) : Line1 j l (.simple [.assign (.index (v .out) es) e]) := by
  refine mkSimple (.name (nameOf .out)) (op .lbrack :: (sp ++ op .rbrack :: .sp :: op .eq :: .sp :: ps)) ?_ ?_ ?_ ?_
  · rw [h1]; simp [spell, spell_append, Piece.spell, spellTok, spellOp, nameOf]
  · have := hs (op .rbrack :: .sp :: op .eq :: .sp :: ps) rfl ⟨trivial, rfl, trivial, rfl, h2⟩
    exact ⟨isName_out, rfl, trivial, rfl, this⟩
  · simp [toksOf, toksOf_append, Piece.toks, simpleToks, toks, h3, hst]
  · exact ⟨⟨trivial, rfl, hsw, hsn⟩, hw⟩

theorem val_toks (n : Str) : toksOf [nm (.val n)] = toks (v (.val n)) := rfl

theorem chk_val {n : Str} (hn : ∀ c ∈ n, c.isDigit = true) : chk [nm (.val n)] := ⟨isName_key (k := .val n) hn, rfl, trivial⟩

theorem line_store {e : TExpr} (he : tGood e) :
    Line1 4 s!"    out[{Text.row cfg ", "}i_x] = {Text.expr e}" (.simple [outA cfg (.cons (v .ix) .nil) (exprA e)]) := by
  cases h : cfg.vectorized with
  | false =>
    refine mkOut [nm .ix] (exprP e) ?_ ?_ ?_ ?_ ?_ (chk_expr' he) (expr_toks e he) (expr_wf e he)
    · simp [Text.row, h, expr_spell e he, spell, Piece.spell, spellTok, nameOf, String.toList_append, List.replicate_succ]
    · intro rest hf hr; simp [chk, okTok, isName_ix, loose_name, hf, hr]
    · simp [rowA, h, toksOf, Piece.toks, toks]
    · simp [rowA, h, wf]
    · simp [rowA, h]
  | true =>
    refine mkOut [nm .nn, op .comma, .sp, nm .ix] (exprP e) ?_ ?_ ?_ ?_ ?_ (chk_expr' he) (expr_toks e he) (expr_wf e he)
    · simp [Text.row, h, expr_spell e he, spell, Piece.spell, spellTok, spellOp, nameOf, String.toList_append, List.replicate_succ]
    · intro rest hf hr
      simp [chk, okTok, isName_ix, isName_nn, loose_name, hf, hr, loose_sym, symbol, follow_op]
    · simp [rowA, h, toksOf, Piece.toks, toks]
    · simp [rowA, h, wf]
    · simp [rowA, h]

theorem line_storeOrd {n : Str} (hn : ∀ c ∈ n, c.isDigit = true) (j : ℕ) :
    Line1 4 s!"    out[{Text.row cfg ", "}i_x, {j}] = val_{String.ofList n}"
      (.simple [outA cfg (.cons (v .ix) (.cons (.int j) .nil)) (v (.val n))]) := by
  cases h : cfg.vectorized with
  | false =>
    refine mkOut [nm .ix, op .comma, .sp, it j] [nm (.val n)] ?_ ?_ ?_ ?_ ?_ (chk_val hn) rfl trivial
    · simp [Text.row, h, spell, Piece.spell, spellTok, spellOp, nameOf, String.toList_append, List.replicate_succ, Nat.repr]
    · intro rest hf hr; simp [chk, okTok, isName_ix, loose_name, loose_int, loose_sym, symbol, hf, hr, follow_op]
    · simp [rowA, h, toksOf, Piece.toks, toks]
    · simp [rowA, h, wf]
    · simp [rowA, h]
  | true =>
    refine mkOut [nm .nn, op .comma, .sp, nm .ix, op .comma, .sp, it j] [nm (.val n)] ?_ ?_ ?_ ?_ ?_ (chk_val hn) rfl trivial
    · simp [Text.row, h, spell, Piece.spell, spellTok, spellOp, nameOf, String.toList_append, List.replicate_succ, Nat.repr]
    · intro rest hf hr
      simp [chk, okTok, isName_ix, isName_nn, loose_name, loose_int, loose_sym, symbol, hf, hr, follow_op]
    · simp [rowA, h, toksOf, Piece.toks, toks]
    · simp [rowA, h, wf]
    · simp [rowA, h]

theorem line_storeVal {n : Str} (hn : ∀ c ∈ n, c.isDigit = true) (j : ℕ) :
    Line1 0 s!"out[{Text.row cfg ","}{j}] = val_{String.ofList n}"
      (.simple [outA cfg (.cons (.int j) .nil) (v (.val n))]) := by
  cases h : cfg.vectorized with
  | false =>
    refine mkOut [it j] [nm (.val n)] ?_ ?_ ?_ ?_ ?_ (chk_val hn) rfl trivial
    · simp [Text.row, h, spell, Piece.spell, spellTok, nameOf, String.toList_append, Nat.repr]
    · intro rest hf hr; simp [chk, okTok, loose_int, hf, hr]
    · simp [rowA, h, toksOf, Piece.toks, toks]
    · simp [rowA, h, wf]
    · simp [rowA, h]
  | true =>
    refine mkOut [nm .nn, op .comma, it j] [nm (.val n)] ?_ ?_ ?_ ?_ ?_ (chk_val hn) rfl trivial
    · simp [Text.row, h, spell, Piece.spell, spellTok, spellOp, nameOf, String.toList_append, Nat.repr]
    · intro rest hf hr
      simp [chk, okTok, isName_nn, loose_name, loose_int, loose_sym, symbol, hf, hr, follow_op]
    · simp [rowA, h, toksOf, Piece.toks, toks]
    · simp [rowA, h, wf]
    · simp [rowA, h]

theorem line_storeScalar {e : TExpr} (he : tGood e) :
    Line1 0 s!"out[nn] = {Text.expr e}" (.simple [.assign (at1 (v .out) (v .nn)) (exprA e)]) := by
  refine mkOut [nm .nn] (exprP e) ?_ ?_ rfl (by simp [wf]) (by simp) (chk_expr' he) (expr_toks e he) (expr_wf e he)
  · simp [expr_spell e he, spell, Piece.spell, spellTok, nameOf, String.toList_append]
  · intro rest hf hr; simp [chk, okTok, isName_nn, loose_name, hf, hr]

theorem line_fill : Line1 4 ("    " ++ "out[:] = 0.0") (.simple [.assign (at1 (v .out) .full) (.float 0)]) :=
  mkOut [op .colon] [fl 0] (by decide) (fun rest _ hr => ⟨trivial, rfl, hr⟩) rfl (by simp [wf]) (by simp) (by ckk) rfl trivial

theorem line_ret4 : Line1 4 ("    " ++ "return out") (.simple [.ret (v .out)]) :=
  mkSimple (.op .kReturn) [.sp, nm .out] (by decide) (by ckk) (by tkk) trivial

theorem line_retVal4 : Line1 4 ("    " ++ "return val") (.simple [.ret (v .valTmp)]) :=
  mkSimple (.op .kReturn) [.sp, nm .valTmp] (by decide) (by ckk) (by tkk) trivial

theorem line_val4 : Line1 4 ("    " ++ "val = 0.0") (.simple [set .valTmp (.float 0)]) :=
  mkSet [fl 0] trivial (by decide) (by ckk) (by tkk) (by wff)

theorem line_cont : Line1 4 ("    " ++ "continue") (.simple [.cont]) :=
  mkSimple (.op .kContinue) [] (by decide) (by ckk) (by tkk) trivial

theorem line_fillRow : Line1 4 ("    " ++ if cfg.vectorValued then "out[nn,:] = 0.0" else "out[nn] = 0.0")
    (.simple [.assign (.index (v .out) (if cfg.vectorValued then .cons (v .nn) (.cons .full .nil) else .cons (v .nn) .nil)) (.float 0)]) := by
  cases cfg.vectorValued with
  | true =>
    exact mkOut [nm .nn, op .comma, op .colon] [fl 0] (by decide) (fun rest _ hr => ⟨isName_nn, rfl, trivial, rfl, trivial, rfl, hr⟩)
      rfl (by simp [wf]) (by simp) (by ckk) rfl trivial
  | false =>
    refine mkOut [nm .nn] [fl 0] (by decide) ?_ rfl (by simp [wf]) (by simp) (by ckk) rfl trivial
    intro rest hf hr; simp [chk, okTok, isName_nn, loose_name, hf, hr]

theorem means_guard (k : ℕ) (g : GuardBody) :
    Means (k + 4) (((Text.guard cfg g).map ("    " ++ ·)).map (padl k)) (lines (guardA cfg g)) := by
  cases g with
  | zeroReturn => exact .cons line_fill rfl (.cons line_ret4 rfl (.nil _))
  | zeroFall => exact .cons line_fill rfl (.nil _)
  | returnZero => exact .cons line_val4 rfl (.cons line_retVal4 rfl (.nil _))
  | zeroContinue => exact .cons line_fillRow rfl (.cons line_cont rfl (.nil _))

theorem toksOf_sps (k : ℕ) : toksOf (List.replicate k .sp) = [] := by
  simpa [toksOf] using toksOf_replicate k []

/-- The line that a tuple spread over several lines makes. -/
theorem means_tuple (k : ℕ) {vs : List Str} (hne : vs ≠ []) (hv : ∀ n ∈ vs, ∀ c ∈ n, c.isDigit = true) :
    Means k ((["val = (\\"] ++ (vs.map fun n => s!"val_{String.ofList n},\\") ++ [")"]).map (padl k))
      (lines [[set .valTmp (.tuple (L (vs.map fun n => v (.val n))) true)]]) := by
  let elems (ns : List Str) : List Piece := ns.flatMap fun n => List.replicate k .sp ++ [nm (.val n), op .comma]
  let ps (ns : List Str) : List Piece := elems ns ++ (List.replicate k .sp ++ [op .rpar])
  have elem_spell : ∀ n : Str, padl k s!"val_{String.ofList n},\\"
      = spell (List.replicate k .sp ++ [nm (.val n), op .comma]) ++ ['\\'] := by
    intro n
    rw [spell_replicate, padl]
    simp [spell, Piece.spell, spellTok, spellOp, nameOf, String.toList_append]
  have hj : ∀ (ns : List Str) (rest : List Str),
      joinLines ((ns.map fun n => padl k s!"val_{String.ofList n},\\") ++ padl k ")" :: rest) = spell (ps ns) :: joinLines rest := by
    intro ns rest
    induction ns with
    | nil =>
      have e : padl k ")" = spell (ps []) := by
        simp only [ps, elems, List.flatMap_nil, List.nil_append, spell_replicate, padl]; rfl
      have hlast : (padl k ")").getLast? ≠ some '\\' := by
        rw [padl, List.getLast?_append]; simp
      rw [List.map_nil, List.nil_append, joinLines, if_neg hlast, e]
    | cons n ns ih =>
      rw [List.map_cons, List.cons_append, joinLines, elem_spell, if_pos (by simp), ih]
      simp only [List.dropLast_concat]
      congr 1
      simp only [ps, elems, List.flatMap_cons, List.append_assoc, spell_append]
  have hp : padl k "val = (\\" = List.replicate k ' ' ++ spell [nm .valTmp, .sp, op .eq, .sp, op .lpar] ++ ['\\'] := by
    simp [padl, spell, Piece.spell, spellTok, spellOp, nameOf]
  have hchk : ∀ ns : List Str, (∀ n ∈ ns, ∀ c ∈ n, c.isDigit = true) → chk (ps ns) := by
    have hrep : ∀ (m : ℕ) (qs : List Piece), chk (List.replicate m .sp ++ qs) ↔ chk qs := by
      intro m qs
      induction m with
      | zero => rfl
      | succ m ih => simpa only [List.replicate_succ, List.cons_append, chk] using ih
    intro ns hns
    induction ns with
    | nil => simp only [ps, elems, List.flatMap_nil, List.nil_append, hrep]; exact ⟨trivial, rfl, trivial⟩
    | cons n ns ih =>
      have := ih fun m hm => hns m (by simp [hm])
      simp only [ps, elems, List.flatMap_cons, List.append_assoc, hrep] at this ⊢
      exact ⟨isName_key (k := .val n) (hns n (by simp)), rfl, trivial, rfl, this⟩
  have htoks : ∀ ns : List Str, ns ≠ [] → toksOf (elems ns) = toks (L (ns.map fun n => v (.val n))) ++ [.op .comma] := by
    intro ns hns
    induction ns with
    | nil => exact absurd rfl hns
    | cons n ns ih =>
      simp only [elems, List.flatMap_cons, toksOf_append, toksOf_sps, List.nil_append]
      by_cases h : ns = []
      · subst h; simp [toksOf, Piece.toks, L, toks]
      · have := ih h
        rw [List.map_cons, L, toks_cons _ _ (by cases ns with | nil => exact absurd rfl h | cons => simp [L])]
        simp only [elems] at this
        rw [this]
        simp [toksOf, Piece.toks, toks]
  have hargs : ∀ ns : List Str, wf .args (L (ns.map fun n => v (.val n))) := by
    intro ns
    induction ns with
    | nil => trivial
    | cons n ns ih => exact ⟨trivial, ih⟩
  refine ⟨trivial, [List.replicate k ' ' ++ spell (nm .valTmp :: .sp :: op .eq :: .sp :: op .lpar :: ps vs)], fun rest => ?_,
    .cons (reads (ok_of_chk (ps := nm .valTmp :: .sp :: op .eq :: .sp :: op .lpar :: ps vs)
      ⟨isName_valTmp, rfl, trivial, rfl, trivial, rfl, hchk vs hv⟩) ?_ ?_) .nil⟩
  · have := hj vs rest
    simp only [List.map_append, List.map_cons, List.map_nil, List.map_map, List.cons_append, List.nil_append, List.append_assoc]
    rw [joinLines, hp, if_pos (by simp)]
    have e2 : (padl k ∘ fun n => s!"val_{String.ofList n},\\") = fun n => padl k s!"val_{String.ofList n},\\" := rfl
    rw [e2, this]
    simp [spell]
  · intro r hr
    simp [spell, Piece.spell, spellTok, nameOf] at hr
  · have : toksOf (nm .valTmp :: .sp :: op .eq :: .sp :: op .lpar :: ps vs)
        = simplesToks [set .valTmp (.tuple (L (vs.map fun n => v (.val n))) true)] false := by
      simp only [toksOf, ps, toksOf_append, htoks vs hne, toksOf_sps]
      simp [Piece.toks, simplesToks, simpleToks, toks]
    rw [this]
    refine .simple _ false (by simp) ?_
    intro s hs
    simp only [List.mem_singleton] at hs
    subst hs
    refine ⟨trivial, hargs vs, ?_, by simp⟩
    intro h
    cases vs with
    | nil => exact absurd rfl hne
    | cons => simp [L] at h

/-- Statements that occur. -/
def stGood : Stmt → Prop
  | .storeComp e => tGood e
  | .storeCompOrders as vs => as ≠ [] ∧ (∀ p ∈ as, (∀ c ∈ p.1, c.isDigit = true) ∧ tGood p.2) ∧ ∀ n ∈ vs, ∀ c ∈ n, c.isDigit = true
  | .assignVal n e => (∀ c ∈ n, c.isDigit = true) ∧ tGood e
  | .storeVal _ n => ∀ c ∈ n, c.isDigit = true
  | .storeScalar e => tGood e
  | .retVal e => tGood e
  | .retTuple vs => vs ≠ [] ∧ ∀ n ∈ vs, ∀ c ∈ n, c.isDigit = true
  | _ => True

theorem means_stmt (k : ℕ) (st : Stmt) (h : stGood st) : Means k ((Text.stmt cfg st).map (padl k)) (stmtA cfg st) := by
  cases st with
  | readNVals d => exact means_one (line_readNVals d) rfl
  | alloc kind =>
    cases kind with
    | vals => exact means_one line_zeros rfl
    | valsOrders m => exact means_one (line_zeros2 m) rfl
    | orders m => exact means_one (line_zeros1 m) rfl
  | allocateOutput vec n => exact means_one (line_alloc cfg.orders) rfl
  | recoverUniform i => exact .cons (line_a i) rfl (.cons (line_b i) rfl (.cons (line_n i) rfl (means_one (line_delta i) rfl)))
  | recoverNonuniform i bounds =>
    cases bounds with
    | false => exact .cons (line_gc i) rfl (means_one (line_N i) rfl)
    | true => exact .cons (line_gc i) rfl (.cons (line_N i) rfl (.cons (line_a' i) rfl (means_one (line_b' i) rfl)))
  | loadX i => exact means_one (line_x i) rfl
  | clampNearest i => exact means_one (line_clamp i) rfl
  | constGuard i g =>
    have := Means.block (line_guard i) (means_guard (cfg := cfg) k g) (by cases g <;> simp [guardA, lines]) (.nil _)
    rw [List.append_nil] at this
    exact this
  | locateUniform i =>
    exact .cons (line_u i) rfl (.cons (line_floor i) rfl (.cons (line_cell i) rfl (means_one (line_lam i) rfl)))
  | locateNonuniform i =>
    exact .cons (line_search i) rfl (.cons (line_cell' i) rfl (.cons (line_delta' i) rfl (means_one (line_lam' i) rfl)))
  | blend1 l i => exact means_blend1 k l i
  | blend3 l i => exact means_blend3 k l i
  | storeComp e =>
    have := Means.block line_for (means_one (k := k) (line_store (cfg := cfg) h) rfl) (by simp [lines]) (.nil k)
    exact this
  | storeCompOrders as vs =>
    obtain ⟨h1, h2, h3⟩ := h
    have m1 := Means.lines (k := k) (m := k + 4) (fun p : ValName × TExpr => s!"    val_{String.ofList p.1} = {Text.expr p.2}")
      (fun p => [set (.val p.1) (exprA p.2)]) as (fun p hp => line_val (h2 p hp).1 (h2 p hp).2 _ (by
        simp [String.toList_append, List.replicate_succ])) rfl
    have m2 := Means.lines (k := k) (m := k + 4) (fun p : Str × ℕ => s!"    out[{Text.row cfg ", "}i_x, {p.2}] = val_{String.ofList p.1}")
      (fun p => [outA cfg (.cons (v .ix) (.cons (.int p.2) .nil)) (v (.val p.1))]) vs.zipIdx (fun p hp => line_storeOrd (h3 p.1 (by
        have := List.mem_zipIdx hp; simp at this; rw [this.2]; exact List.getElem_mem _)) p.2) rfl
    have m3 := Means.block line_for (m1.append m2) (by
      cases as with
      | nil => exact absurd rfl h1
      | cons a as => simp [lines, Block.append]) (.nil k)
    rw [← lines_append] at m3
    simp only [stmtA, Text.stmt, List.mapIdx_eq_zipIdx_map]
    convert m3 using 1
    simp only [List.map_append, List.map_cons, List.map_nil, List.map_map, List.cons_append, List.nil_append, List.append_nil]
    rfl
  | assignVal n e => exact means_one (j := 0) (line_val h.1 h.2 _ (by simp [String.toList_append])) rfl
  | storeVal j n => exact means_one (line_storeVal h j) rfl
  | storeScalar e => exact means_one (line_storeScalar h) rfl
  | retVal e => exact .cons (line_valTmp h) rfl (means_one line_retVal rfl)
  | retTuple vs =>
    have := (means_tuple k h.1 h.2).append (means_one (k := k) line_retVal rfl)
    simp only [stmtA, Text.stmt]
    convert this using 1
    · simp
    · rfl
  | retOut => exact means_one line_ret rfl

theorem means_stmts (k : ℕ) (ss : List Stmt) (h : ∀ s ∈ ss, stGood s) :
    Means k ((ss.flatMap (Text.stmt cfg)).map (padl k)) (stmtsA cfg ss) := by
  induction ss with
  | nil => exact .nil _
  | cons s ss ih =>
    rw [List.flatMap_cons, List.map_append]
    exact (means_stmt k s (h s (by simp))).append (ih fun t ht => h t (by simp [ht]))

theorem stmtA_ne (s : Stmt) (h : stGood s) : stmtA cfg s ≠ .nil := by
  cases s with
  | alloc kind => cases kind <;> simp [stmtA, lines]
  | recoverNonuniform i b => simp [stmtA, lines]
  | blend1 l i => simp only [stmtA, blend1A]; split_ifs <;> simp [lines]
  | blend3 l i => simp [stmtA, blend3A, lines, Block.append]
  | _ => simp [stmtA, lines]

theorem append_ne {b : Block} (h : b ≠ .nil) (c : Block) : b.append c ≠ .nil := by
  cases b <;> simp [Block.append] at h ⊢

theorem padl_block (k : ℕ) (pad : String) (hp : pad.toList = List.replicate k ' ') (ss : List Stmt) :
    (Text.block cfg pad ss).map String.toList = (ss.flatMap (Text.stmt cfg)).map (padl k) := by
  simp only [Text.block, List.map_map]
  congr 1
  funext l
  simp [padl, String.toList_append, hp]

/-- The whole text. -/
theorem means_program (p : Program) (h1 : ∀ s ∈ p.prelude, stGood s) (h2 : ∀ s ∈ p.body, stGood s)
    (hb : cfg.vectorized = true → p.body ≠ []) (hb' : cfg.vectorized = false → p.body = []) :
    Means 0 ((Text.program cfg p).map String.toList) (programA cfg p) := by
  have d0 := means_one (k := 4) line_doc rfl
  have d1 : Means 4 ((if cfg.vectorized then ["N = points.shape[0]"] else []).map (padl 4))
      (if cfg.vectorized then lines [[set .npts (at1 (.attr (v .points) shapeName) (.int 0))]] else .nil) := by
    cases cfg.vectorized with
    | true => exact means_one line_npts rfl
    | false => exact .nil _
  have d2 := means_stmts (cfg := cfg) 4 p.prelude h1
  have d3 : Means 4 ((if cfg.vectorized then ["for nn in range(N):"] else []).map (padl 4)
        ++ (p.body.flatMap (Text.stmt cfg)).map (padl 8))
      (if cfg.vectorized then .block (.forH (nameOf .nn) (.call (gl .range) (L [v .npts]))) (stmtsA cfg p.body) .nil else .nil) := by
    cases h : cfg.vectorized with
    | true =>
      have hne := hb h
      have := Means.block line_forN (means_stmts (cfg := cfg) (4 + 4) p.body h2) (by
        cases hp : p.body with
        | nil => exact absurd hp hne
        | cons s ss =>
          rw [stmtsA, List.map_cons, Block.join]
          exact append_ne (stmtA_ne s (h2 s (by simp [hp]))) _) (.nil 4)
      simpa using this
    | false => rw [hb' h]; exact .nil _
  have d4 : Means 4 ((if p.retOut then ["return out"] else []).map (padl 4))
      (if p.retOut then lines [[.ret (v .out)]] else .nil) := by
    cases p.retOut with
    | true => exact means_one line_ret rfl
    | false => exact .nil _
  have d := d0.append (d1.append (d2.append (d3.append (d4.append (.nil 4)))))
  have := Means.block line_def (k := 0) d (by simp [lines, Block.append]) (.nil 0)
  rw [programA, bodyA]
  convert this using 1
  · simp only [Text.program, List.map_append, List.map_cons, List.map_nil, padl_block 4 "    " (by decide),
      padl_block 8 "        " (by decide), List.append_assoc, List.cons_append, List.nil_append, List.append_nil]
    cases cfg.vectorized <;> cases p.retOut <;> simp [padl]
  · rfl

end

end Interp.PyParse
