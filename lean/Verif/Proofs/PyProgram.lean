import Verif.Proofs.PyNames
import Verif.Spec.ProgramText

/-!
# Syntax trees of the generated code, and that its text is read as them
-/

namespace Interp.PyParse
open Interp.Spec.PyLang Interp.Codegen Interp.Spec

/-! ### Trees -/

end Interp.PyParse

namespace Interp.Spec.PyLang.Block

def append : Block → Block → Block
  | .nil, c => c
  | .simple ss r, c => .simple ss (append r c)
  | .block h b r, c => .block h b (append r c)

def join : List Block → Block
  | [] => .nil
  | b :: bs => b.append (join bs)

end Interp.Spec.PyLang.Block

namespace Interp.PyParse
open Interp.Spec.PyLang Interp.Codegen Interp.Spec

def lines : List (List Simple) → Block
  | [] => .nil
  | ss :: r => .simple ss (lines r)

/-- A list of arguments. -/
def L : List PExpr → PExpr
  | [] => .nil
  | e :: es => .cons e (L es)

abbrev v (k : Key) : PExpr := .name (nameOf k)
abbrev vd (i : ℕ) (k : DKey) : PExpr := .name (nameOf (.dim i k))
abbrev gl (g : Glob) : PExpr := .name (nameOf (.glob g))
abbrev set (k : Key) (e : PExpr) : Simple := .assign (v k) e
abbrev shapeName : Str := ['s', 'h', 'a', 'p', 'e']
abbrev searchName : Str := ['s', 'e', 'a', 'r', 'c', 'h', 's', 'o', 'r', 't', 'e', 'd']
abbrev at1 (e i : PExpr) : PExpr := .index e (.cons i .nil)

/-- Subscripts of the coefficient array. -/
def idxA (vec : Bool) : ℕ → List ℕ → PExpr
  | _, [] => if vec then .cons (v .ix) .nil else .nil
  | i, o :: os => .cons (if o = 0 then vd i .idx else .bin .plus (vd i .idx) (.int o)) (idxA vec (i + 1) os)

def exprA : TExpr → PExpr
  | .phi l i j => vd i (.phi l j)
  | .coef offs vec => .index (v .C) (idxA vec 0 offs)
  | .mul a b => .bin .star (exprA a) (.paren (exprA b))
  | .add a b => .bin .plus (exprA a) (exprA b)
  | .empty => .nil

/-- Expressions that occur. -/
def tGood : TExpr → Prop
  | .phi .. => True
  | .coef offs _ => offs ≠ []
  | .mul a b => (∃ l i j, a = .phi l i j) ∧ tGood b
  | .add a b => tGood a ∧ tGood b ∧ ∃ c d, b = .mul c d
  | .empty => False

def tupA : List PExpr → PExpr
  | [] => .tuple .nil false
  | [a] => .tuple (L [a]) true
  | as => .tuple (L as) false

def ordersA : Option (List (List ℕ)) → PExpr
  | none => gl .none
  | some os => tupA (os.map fun o => tupA (o.map .int))

/-- Subscripts with the number of the current point. -/
def rowA (cfg : Cfg) (es : PExpr) : PExpr := if cfg.vectorized then .cons (v .nn) es else es

def blend1A (l i : ℕ) : List (List Simple) :=
  if l = 0 then
    [[set (.dim i (.phi 0 0)) (.bin .minus (.float 1) (vd i .lam))],
     [set (.dim i (.phi 0 1)) (vd i .lam)]]
  else if l = 1 then
    [[set (.dim i (.phi 1 0)) (.bin .slash (.neg (.float 1)) (vd i .delta))],
     [set (.dim i (.phi 1 1)) (.bin .slash (.float 1) (vd i .delta))]]
  else
    [[set (.dim i (.phi l 0)) (.float 0)],
     [set (.dim i (.phi l 1)) (.float 0)]]

abbrev mu (i j : ℕ) : PExpr := v (.mu i j)
abbrev cd (g : Glob) (j m : ℕ) : PExpr := .index (gl g) (.cons (.int j) (.cons (.int m) .nil))

def muA (l i : ℕ) : List Simple :=
  if l = 0 then
    [set (.mu i 0) (.bin .star (.bin .star (vd i .lam) (vd i .lam)) (vd i .lam)),
     set (.mu i 1) (.bin .star (vd i .lam) (vd i .lam)),
     set (.mu i 2) (vd i .lam),
     set (.mu i 3) (.float 1)]
  else
    [set (.mu i 0) (.bin .star (.bin .star (.bin .star (.int 3) (vd i .lam)) (vd i .lam)) (vd i .delta)),
     set (.mu i 1) (.bin .star (.bin .star (.int 2) (vd i .lam)) (vd i .delta)),
     set (.mu i 2) (vd i .delta),
     set (.mu i 3) (.float 0)]

def lowA (l i j : ℕ) : Simple :=
  set (.dim i (.phi l j)) (.bin .plus (.bin .star (cd .dCd j 3) (mu i 2)) (.bin .star (cd .Cd j 3) (mu i 3)))

def highA (l i j : ℕ) : Simple :=
  set (.dim i (.phi l j)) (.bin .plus
    (.bin .star
      (.paren (.bin .plus (.bin .plus (.bin .star (.int 3) (cd .Cd j 0)) (.bin .star (.int 2) (cd .Cd j 1))) (cd .Cd j 2)))
      (.paren (.bin .minus (mu i 2) (mu i 3))))
    (.bin .star
      (.paren (.bin .plus (.bin .plus (.bin .plus (cd .Cd j 0) (cd .Cd j 1)) (cd .Cd j 2)) (cd .Cd j 3)))
      (mu i 3)))

def midA (l i j : ℕ) : Simple :=
  set (.dim i (.phi l j)) (.paren (.bin .plus (.bin .plus (.bin .plus
    (.bin .star (cd .Cd j 0) (mu i 0)) (.bin .star (cd .Cd j 1) (mu i 1)))
    (.bin .star (cd .Cd j 2) (mu i 2))) (.bin .star (cd .Cd j 3) (mu i 3))))

def blend3A (l i : ℕ) : Block :=
  .append (lines ([muA l i] ++ (List.range 4).map fun j => [set (.dim i (.phi l j)) (.float 0)]))
    (.block (.ifH (.bin .lt (vd i .lam) (.int 0))) (lines ((List.range 4).map fun j => [lowA l i j]))
      (.block (.elifH (.bin .gt (vd i .lam) (.int 1))) (lines ((List.range 4).map fun j => [highA l i j]))
        (.block .elseH (lines ((List.range 4).map fun j => [midA l i j])) .nil)))

def guardA (cfg : Cfg) : GuardBody → List (List Simple)
  | .zeroReturn => [[.assign (at1 (v .out) .full) (.float 0)], [.ret (v .out)]]
  | .zeroFall => [[.assign (at1 (v .out) .full) (.float 0)]]
  | .returnZero => [[set .valTmp (.float 0)], [.ret (v .valTmp)]]
  | .zeroContinue =>
    [[.assign (.index (v .out) (if cfg.vectorValued then .cons (v .nn) (.cons .full .nil) else .cons (v .nn) .nil)) (.float 0)],
     [.cont]]

def outA (cfg : Cfg) (es : PExpr) (e : PExpr) : Simple := .assign (.index (v .out) (rowA cfg es)) e

def stmtA (cfg : Cfg) : Stmt → Block
  | .readNVals d => lines [[set .nVals (at1 (.attr (v .C) shapeName) (.int d))]]
  | .alloc .vals => lines [[set .out (.call (gl .zeros) (L [v .nVals]))]]
  | .alloc (.valsOrders m) => lines [[set .out (.call (gl .zeros) (L [.tuple (L [v .nVals, .int m]) false]))]]
  | .alloc (.orders m) => lines [[set .out (.call (gl .zeros) (L [.int m]))]]
  | .allocateOutput _ _ =>
    lines [[set .out (.call (gl .allocateOutput) (L [v .grid, v .C, v .points, ordersA cfg.orders]))]]
  | .recoverUniform i => lines
    [[set (.dim i .a) (at1 (at1 (v .grid) (.int i)) (.int 0))],
     [set (.dim i .b) (at1 (at1 (v .grid) (.int i)) (.int 1))],
     [set (.dim i .n) (at1 (at1 (v .grid) (.int i)) (.int 2))],
     [set (.dim i .delta) (.bin .slash (.paren (.bin .minus (vd i .n) (.float 1))) (.paren (.bin .minus (vd i .b) (vd i .a))))]]
  | .recoverNonuniform i bounds => lines
    ([[set (.dim i .gc) (at1 (v .grid) (.int i))],
      [set (.dim i .N) (at1 (.attr (vd i .gc) shapeName) (.int 0))]]
    ++ if bounds then
      [[set (.dim i .a) (at1 (vd i .gc) (.int 0))],
       [set (.dim i .b) (at1 (vd i .gc) (.bin .minus (vd i .N) (.int 1)))]] else [])
  | .loadX i => lines [[set (.dim i .x) (.index (v .points) (rowA cfg (.cons (.int i) .nil)))]]
  | .clampNearest i => lines
    [[set (.dim i .x) (.call (gl .max) (L [vd i .a, .call (gl .min) (L [vd i .x, vd i .b])]))]]
  | .constGuard i body =>
    .block (.ifH (.bin .kOr (.paren (.bin .lt (vd i .x) (vd i .a))) (.paren (.bin .gt (vd i .x) (vd i .b)))))
      (lines (guardA cfg body)) .nil
  | .locateUniform i => lines
    [[set (.u i) (.bin .star (.paren (.bin .minus (vd i .x) (vd i .a))) (vd i .delta))],
     [set (.dim i .idx) (.call (gl .int) (L [.call (gl .floor) (L [v (.u i)])]))],
     [set (.dim i .idx) (.call (gl .max) (L [.call (gl .min) (L [vd i .idx, .bin .minus (vd i .n) (.int 2)]), .int 0]))],
     [set (.dim i .lam) (.bin .minus (v (.u i)) (vd i .idx))]]
  | .locateNonuniform i => lines
    [[set (.dim i .idx)
        (.bin .minus (.call (gl .int) (L [.call (.attr (gl .np) searchName) (L [vd i .gc, vd i .x])])) (.int 1))],
     [set (.dim i .idx) (.call (gl .min) (L [.call (gl .max) (L [vd i .idx, .int 0]), .bin .minus (vd i .N) (.int 2)]))],
     [set (.dim i .delta) (.paren (.bin .minus (at1 (vd i .gc) (.bin .plus (vd i .idx) (.int 1))) (at1 (vd i .gc) (vd i .idx))))],
     [set (.dim i .lam) (.bin .slash (.paren (.bin .minus (vd i .x) (at1 (vd i .gc) (vd i .idx)))) (vd i .delta))]]
  | .blend1 l i => lines (blend1A l i)
  | .blend3 l i => blend3A l i
  | .storeComp e =>
    .block (.forH (nameOf .ix) (.call (gl .range) (L [v .nVals]))) (lines [[outA cfg (.cons (v .ix) .nil) (exprA e)]]) .nil
  | .storeCompOrders assigns stores =>
    .block (.forH (nameOf .ix) (.call (gl .range) (L [v .nVals])))
      (lines ((assigns.map fun p => [set (.val p.1) (exprA p.2)])
        ++ stores.mapIdx fun j n => [outA cfg (.cons (v .ix) (.cons (.int j) .nil)) (v (.val n))])) .nil
  | .assignVal n e => lines [[set (.val n) (exprA e)]]
  | .storeVal j n => lines [[outA cfg (.cons (.int j) .nil) (v (.val n))]]
  | .storeScalar e => lines [[.assign (at1 (v .out) (v .nn)) (exprA e)]]
  | .retVal e => lines [[set .valTmp (exprA e)], [.ret (v .valTmp)]]
  | .retTuple vs => lines [[set .valTmp (.tuple (L (vs.map fun n => v (.val n))) true)], [.ret (v .valTmp)]]
  | .retOut => lines [[.ret (v .out)]]

def params : List (Str × Option PExpr) :=
  [(nameOf .grid, none), (nameOf .C, none), (nameOf .points, none), (nameOf .out, some (gl .none)), (nameOf .kk, some (.int 1)),
   (nameOf .diff, some (.str ['N', 'o', 'n', 'e'])), (nameOf .mode, some (.str ['l', 'i', 'n', 'e', 'a', 'r']))]

def docText : Str := ['T', 'h', 'i', 's', ' ', 'i', 's', ' ', 'm', 'y', ' ', 'd', 'o', 'c', 's', 't', 'r', 'i', 'n', 'g']

def funName : Str := ['e', 'v', 'a', 'l', '_', 's', 'p', 'l', 'i', 'n', 'e']

def stmtsA (cfg : Cfg) (ss : List Stmt) : Block := Block.join (ss.map (stmtA cfg))

def bodyA (cfg : Cfg) (p : Program) : Block :=
  Block.join [lines [[.expr (.str docText)]],
    (if cfg.vectorized then lines [[set .npts (at1 (.attr (v .points) shapeName) (.int 0))]] else .nil),
    stmtsA cfg p.prelude,
    (if cfg.vectorized then .block (.forH (nameOf .nn) (.call (gl .range) (L [v .npts]))) (stmtsA cfg p.body) .nil else .nil),
    (if p.retOut then lines [[.ret (v .out)]] else .nil)]

def programA (cfg : Cfg) (p : Program) : Block := .block (.defH funName params) (bodyA cfg p) .nil

/-! ### Pieces -/

abbrev nm (k : Key) : Piece := .tok (.name (nameOf k))
abbrev dm (i : ℕ) (k : DKey) : Piece := .tok (.name (nameOf (.dim i k)))
abbrev gb (g : Glob) : Piece := .tok (.name (nameOf (.glob g)))
abbrev it (n : ℕ) : Piece := .tok (.int n)
abbrev fl (n : ℕ) : Piece := .tok (.float n)
abbrev op (o : Op) : Piece := .tok (.op o)

/-- The next piece ends every token. -/
def follow : List Piece → Bool
  | [] => true
  | .sp :: _ => true
  | .tok (.op o) :: _ => symbol o && o != .dot
  | _ => false

def loose : Tok → List Piece → Bool
  | .op o, ps => symbol o || follow ps
  | .name _, .tok (.op .dot) :: _ => true
  | _, ps => follow ps

def chk : List Piece → Prop
  | [] => True
  | .sp :: ps => chk ps
  | .str q s :: ps => (q = '"' ∨ q = '\'') ∧ q ∉ s ∧ '\\' ∉ s ∧ chk ps
  | .tok t :: ps => okTok t ∧ loose t ps = true ∧ chk ps

theorem brk_follow {ps : List Piece} (h : follow ps = true) : Brk (spell ps) := by
  intro c r hc
  match ps, h with
  | [], _ => simp [spell] at hc
  | .sp :: _, _ => simp [spell, Piece.spell] at hc; rw [← hc.1]; decide
  | .tok (.op o) :: ps, h =>
    cases o <;> first | (simp [follow, symbol] at h; done) | (simp [spell, Piece.spell, spellTok, spellOp] at hc; rw [← hc.1]; decide)

theorem sep_loose {t : Tok} {ps : List Piece} (ht : okTok t) (h : loose t ps = true) : Sep t (spell ps) := by
  unfold loose at h
  split at h
  · rename_i ps o
    rw [Bool.or_eq_true] at h
    rcases h with h | h
    · generalize spell _ = s
      cases s with
      | nil => trivial
      | cons c r => exact Or.inl h
    · exact (brk_follow h).sep ht
  · exact show idChar '.' = false by decide
  · exact (brk_follow h).sep ht

theorem ok_of_chk' : ∀ (ps : List Piece), chk ps → ok ps
  | [], _ => trivial
  | .sp :: ps, h => ok_of_chk' ps h
  | .str _ _ :: ps, h => ⟨h.1, h.2.1, h.2.2.1, ok_of_chk' ps h.2.2.2⟩
  | .tok _ :: ps, h => ⟨h.1, sep_loose h.1 h.2.1, ok_of_chk' ps h.2.2⟩

theorem ok_of_chk {ps : List Piece} (h : chk ps) : ok ps := ok_of_chk' ps h

/-! ### Lines -/

/-- `l` indented by `j` is a line. -/
def Line1 (j : ℕ) (l : String) (C : Line) : Prop :=
  ∃ ps, l.toList = List.replicate j ' ' ++ spell ps ∧ chk ps ∧ (∀ r, spell ps ≠ ' ' :: r) ∧ LineToks C (toksOf ps)

def padl (k : ℕ) (l : String) : Str := List.replicate k ' ' ++ l.toList

theorem Line1.reads {j k : ℕ} {l : String} {C : Line} (h : Line1 j l C) : Reads (padl k l) (k + j, C) := by
  obtain ⟨ps, h1, h2, h3, h4⟩ := h
  rw [padl, h1, ← List.append_assoc, ← List.replicate_add]
  exact PyParse.reads (ok_of_chk h2) h3 h4

theorem Line1.last {j k : ℕ} {l : String} {C : Line} (h : Line1 j l C) : (padl k l).getLast? ≠ some '\\' := by
  obtain ⟨ps, h1, h2, h3, h4⟩ := h
  intro h
  have := List.mem_of_getLast? h
  rw [padl, h1] at this
  simp only [List.mem_append, List.mem_replicate] at this
  rcases this with ⟨_, h⟩ | ⟨_, h⟩ | h
  · exact absurd h (by decide)
  · exact absurd h (by decide)
  · exact no_backslash _ (ok_of_chk h2) h

/-- Lines are read as a block. -/
def Means (k : ℕ) (ls : List Str) (b : Block) : Prop :=
  full b ∧ ∃ js, (∀ rest, joinLines (ls ++ rest) = js ++ joinLines rest) ∧ List.Forall₂ Reads js (linesOf k b)

theorem linesOf_append (k : ℕ) (b c : Block) : linesOf k (b.append c) = linesOf k b ++ linesOf k c := by
  induction b with
  | nil => rfl
  | simple ss r ih => simp [Block.append, linesOf, ih]
  | block h b r _ ih => simp [Block.append, linesOf, ih]

theorem full_append {b c : Block} (hb : full b) (hc : full c) : full (b.append c) := by
  induction b with
  | nil => exact hc
  | simple ss r ih => exact ih hb
  | block h b r _ ih => exact ⟨hb.1, hb.2.1, ih hb.2.2⟩

theorem Means.nil (k : ℕ) : Means k [] .nil := ⟨trivial, [], fun _ => rfl, .nil⟩

theorem Means.append {k : ℕ} {ls ls' : List Str} {b b' : Block} (h : Means k ls b) (h' : Means k ls' b') :
    Means k (ls ++ ls') (b.append b') := by
  obtain ⟨f, js, h1, h2⟩ := h
  obtain ⟨f', js', h1', h2'⟩ := h'
  refine ⟨full_append f f', js ++ js', fun rest => ?_, ?_⟩
  · rw [List.append_assoc, h1, h1', List.append_assoc]
  · rw [linesOf_append]; exact List.rel_append h2 h2'

theorem Means.cons {j k m : ℕ} {l : String} {ls : List Str} {ss : List Simple} {b : Block} (h : Line1 j l (.simple ss))
    (hm : k + j = m) (hb : Means m ls b) : Means m (padl k l :: ls) (.simple ss b) := by
  subst hm
  obtain ⟨f, js, h1, h2⟩ := hb
  refine ⟨f, padl k l :: js, fun rest => ?_, .cons h.reads h2⟩
  rw [List.cons_append, joinLines, if_neg h.last, h1]; rfl

theorem Means.block {k : ℕ} {l : String} {ls ls' : List Str} {h : Header} {b c : Block} (hl : Line1 0 l (.header h))
    (hb : Means (k + 4) ls b) (hn : b ≠ .nil) (hc : Means k ls' c) : Means k (padl k l :: (ls ++ ls')) (.block h b c) := by
  obtain ⟨f, js, h1, h2⟩ := hb
  obtain ⟨f', js', h1', h2'⟩ := hc
  refine ⟨⟨hn, f, f'⟩, padl k l :: (js ++ js'), fun rest => ?_, .cons hl.reads (List.rel_append h2 h2')⟩
  rw [List.cons_append, joinLines, if_neg hl.last, List.append_assoc, h1, h1']
  simp

theorem Means.lines {α : Type} {j k m : ℕ} (f : α → String) (g : α → List Simple) : ∀ (as : List α),
    (∀ a ∈ as, Line1 j (f a) (.simple (g a))) → k + j = m → Means m (as.map fun a => padl k (f a)) (PyParse.lines (as.map g))
  | [], _, _ => .nil _
  | a :: as, h, hm => .cons (h a (by simp)) hm (Means.lines f g as (fun b hb => h b (by simp [hb])) hm)

theorem lines_append (a b : List (List Simple)) : lines (a ++ b) = (lines a).append (lines b) := by
  induction a with
  | nil => rfl
  | cons x a ih => simp [lines, Block.append, ih]

/-! ### Expressions -/

def idxP (vec : Bool) : ℕ → List ℕ → List Piece
  | _, [] => []
  | i, [o] => (if o = 0 then [dm i .idx] else [dm i .idx, .sp, op .plus, .sp, it o])
      ++ if vec then [op .comma, .sp, nm .ix] else []
  | i, o :: os => (if o = 0 then [dm i .idx] else [dm i .idx, .sp, op .plus, .sp, it o]) ++ op .comma :: .sp :: idxP vec (i + 1) os

def exprP : TExpr → List Piece
  | .phi l i j => [dm i (.phi l j)]
  | .coef offs vec => [nm .C, op .lbrack] ++ idxP vec 0 offs ++ [op .rbrack]
  | .mul a b => exprP a ++ [op .star, op .lpar] ++ exprP b ++ [op .rpar]
  | .add a b => exprP a ++ [.sp, op .plus, .sp] ++ exprP b
  | .empty => []

@[local simp] theorem toString_string (s : String) : toString s = s := rfl

theorem phi_name (l i j : ℕ) : (Spec.Text.phi l i j).toList = nameOf (.dim i (.phi l j)) := by
  unfold Spec.Text.phi
  match l with
  | 0 => simp [nameOf, Nat.repr, String.toList_append]
  | 1 => simp [nameOf, Nat.repr, String.toList_append]
  | l + 2 => simp [nameOf, Nat.repr, String.toList_append]

theorem indices_spell (vec : Bool) : ∀ (os : List ℕ) (i : ℕ), os ≠ [] →
    spell (idxP vec i os) = (Spec.Text.indices i os).toList ++ if vec then [',', ' ', 'i', '_', 'x'] else []
  | [], _, h => absurd rfl h
  | [o], i, _ => by
    by_cases ho : o = 0 <;> cases vec <;>
      simp [idxP, ho, spell, Piece.spell, spellTok, spellOp, nameOf, Spec.Text.indices, String.toList_append, Nat.repr]
  | o :: o' :: os, i, _ => by
    have ih := indices_spell vec (o' :: os) (i + 1) (by simp)
    rw [idxP, Spec.Text.indices, String.toList_append, spell_append, spell, spell, ih]
    · by_cases ho : o = 0 <;>
        simp [ho, spell, Piece.spell, spellTok, spellOp, nameOf, String.toList_append, Nat.repr]
    · simp
    · simp

theorem expr_spell : ∀ (e : TExpr), tGood e → spell (exprP e) = (Spec.Text.expr e).toList
  | .phi l i j, _ => by simp [exprP, spell, Piece.spell, spellTok, Spec.Text.expr, phi_name]
  | .coef offs vec, h => by
    have := indices_spell vec offs 0 h
    rw [exprP, spell_append, spell_append, this]
    cases vec <;> simp [Spec.Text.expr, spell, Piece.spell, spellTok, spellOp, nameOf, String.toList_append]
  | .mul a b, h => by
    obtain ⟨⟨l, i, j, rfl⟩, h2⟩ := h
    rw [exprP, spell_append, spell_append, spell_append, expr_spell _ h2, expr_spell (.phi l i j) trivial]
    simp [Spec.Text.expr, spell, Piece.spell, spellTok, spellOp, String.toList_append]
  | .add a b, h => by
    rw [exprP, spell_append, spell_append, expr_spell _ h.1, expr_spell _ h.2.1]
    simp [Spec.Text.expr, spell, Piece.spell, spellTok, spellOp, String.toList_append]
  | .empty, h => h.elim

theorem idx_toks (vec : Bool) : ∀ (os : List ℕ) (i : ℕ), os ≠ [] → toksOf (idxP vec i os) = toks (idxA vec i os)
  | [], _, h => absurd rfl h
  | [o], i, _ => by by_cases ho : o = 0 <;> cases vec <;> simp [idxP, idxA, ho, toks, toksOf, Piece.toks]
  | o :: o' :: os, i, _ => by
    have ih := idx_toks vec (o' :: os) (i + 1) (by simp)
    rw [idxA, toks_cons _ _ (by simp [idxA]), ← ih, idxP]
    · by_cases ho : o = 0 <;> simp [ho, toksOf, Piece.toks, toks]
    · simp

theorem expr_toks : ∀ (e : TExpr), tGood e → toksOf (exprP e) = toks (exprA e)
  | .phi l i j, _ => rfl
  | .coef offs vec, h => by
    rw [exprP, toksOf_append, toksOf_append, idx_toks vec offs 0 h]; simp [toksOf, Piece.toks, exprA, toks]
  | .mul a b, h => by
    obtain ⟨⟨l, i, j, rfl⟩, h2⟩ := h
    rw [exprP, toksOf_append, toksOf_append, toksOf_append, expr_toks _ h2]
    simp [toksOf, Piece.toks, exprA, exprP, toks]
  | .add a b, h => by
    rw [exprP, toksOf_append, toksOf_append, expr_toks _ h.1, expr_toks _ h.2.1]
    simp [toksOf, Piece.toks, exprA, toks]
  | .empty, h => h.elim

theorem okTok_key {k : Key} (h : KeyOk k) : okTok (.name (nameOf k)) := isName_key h

theorem isName_dim (i : ℕ) (d : DKey) : IsName (nameOf (.dim i d)) := isName_key trivial
theorem isName_u (i : ℕ) : IsName (nameOf (.u i)) := isName_key trivial
theorem isName_mu (i j : ℕ) : IsName (nameOf (.mu i j)) := isName_key trivial
theorem isName_glob (g : Glob) : IsName (nameOf (.glob g)) := isName_key trivial
theorem isName_nVals : IsName (nameOf .nVals) := isName_key trivial
theorem isName_out : IsName (nameOf .out) := isName_key trivial
theorem isName_ix : IsName (nameOf .ix) := isName_key trivial
theorem isName_nn : IsName (nameOf .nn) := isName_key trivial
theorem isName_npts : IsName (nameOf .npts) := isName_key trivial
theorem isName_grid : IsName (nameOf .grid) := isName_key trivial
theorem isName_C : IsName (nameOf .C) := isName_key trivial
theorem isName_points : IsName (nameOf .points) := isName_key trivial
theorem isName_valTmp : IsName (nameOf .valTmp) := isName_key trivial
theorem isName_kk : IsName (nameOf .kk) := isName_key trivial
theorem isName_diff : IsName (nameOf .diff) := isName_key trivial
theorem isName_mode : IsName (nameOf .mode) := isName_key trivial

def isDot : List Piece → Bool
  | .tok (.op .dot) :: _ => true
  | _ => false

theorem loose_name {s : Str} {ps : List Piece} : loose (.name s) ps = (follow ps || isDot ps) := by
  match ps with
  | [] => rfl
  | .sp :: _ => rfl
  | .str _ _ :: _ => rfl
  | .tok (.name _) :: _ => rfl
  | .tok (.int _) :: _ => rfl
  | .tok (.float _) :: _ => rfl
  | .tok (.str _) :: _ => rfl
  | .tok (.op o) :: _ => cases o <;> rfl

theorem loose_int {n : ℕ} {ps : List Piece} : loose (.int n) ps = follow ps := by
  unfold loose; rfl

theorem loose_float {n : ℕ} {ps : List Piece} : loose (.float n) ps = follow ps := by
  unfold loose; rfl

theorem loose_sym {o : Op} {ps : List Piece} : loose (.op o) ps = (symbol o || follow ps) := by
  unfold loose; rfl

theorem follow_nil : follow [] = true := rfl
theorem follow_sp (ps : List Piece) : follow (.sp :: ps) = true := rfl
theorem follow_op (o : Op) (ps : List Piece) : follow (.tok (.op o) :: ps) = (symbol o && o != .dot) := rfl

theorem idx_chk (vec : Bool) : ∀ (os : List ℕ) (i : ℕ) (rest : List Piece), os ≠ [] → follow rest = true → chk rest →
    chk (idxP vec i os ++ rest)
  | [], _, _, h, _, _ => absurd rfl h
  | [o], i, rest, _, hf, hr => by
    by_cases ho : o = 0 <;> cases vec <;>
      simp [idxP, ho, chk, okTok, isName_dim, isName_ix, isName_C, hf, hr, loose_name, loose_int, loose_sym, symbol, follow_nil, follow_sp, follow_op]
  | o :: o' :: os, i, rest, _, hf, hr => by
    have ih := idx_chk vec (o' :: os) (i + 1) rest (by simp) hf hr
    by_cases ho : o = 0 <;>
      simp [idxP, ho, chk, okTok, isName_dim, isName_ix, isName_C, ih, loose_name, loose_int, loose_sym, symbol, follow_nil, follow_sp, follow_op]

theorem expr_chk : ∀ (e : TExpr) (rest : List Piece), tGood e → follow rest = true → chk rest → chk (exprP e ++ rest)
  | .phi l i j, rest, _, hf, hr => by simp [exprP, chk, okTok, isName_dim, isName_ix, isName_C, loose_name, hf, hr]
  | .coef offs vec, rest, h, hf, hr => by
    have := idx_chk vec offs 0 (op .rbrack :: rest) h rfl (by simp [chk, okTok, loose, symbol, hr])
    simpa [exprP, chk, okTok, isName_dim, isName_ix, isName_C, loose_name, loose_sym, symbol, follow_nil, follow_sp, follow_op] using this
  | .mul a b, rest, h, hf, hr => by
    obtain ⟨⟨l, i, j, rfl⟩, h2⟩ := h
    have := expr_chk b (op .rpar :: rest) h2 rfl (by simp [chk, okTok, loose, symbol, hr])
    simpa [exprP, chk, okTok, isName_dim, isName_ix, isName_C, loose_name, loose_sym, symbol, follow_nil, follow_sp, follow_op] using this
  | .add a b, rest, h, hf, hr => by
    have h1 := expr_chk b rest h.2.1 hf hr
    have := expr_chk a (.sp :: op .plus :: .sp :: (exprP b ++ rest)) h.1 rfl (by simpa [chk, okTok, loose, symbol] using h1)
    simpa [exprP] using this
  | .empty, _, h, _, _ => h.elim

theorem idx_wf (vec : Bool) : ∀ (os : List ℕ) (i : ℕ), wf .subs (idxA vec i os)
  | [], _ => by cases vec <;> simp [idxA, wf]
  | o :: os, i => by
    have ih := idx_wf vec os (i + 1)
    by_cases ho : o = 0 <;> simp [idxA, wf, ho, ih, opLevel, level]

theorem idx_ne (vec : Bool) {os : List ℕ} (h : os ≠ []) (i : ℕ) : idxA vec i os ≠ .nil := by
  cases os with
  | nil => exact absurd rfl h
  | cons o os => simp [idxA]

theorem expr_level : ∀ (e : TExpr), 2 ≤ level (exprA e) ∨ e = .empty
  | .phi .. => by simp [exprA, level]
  | .coef .. => by simp [exprA, level]
  | .mul .. => by simp [exprA, level, opLevel]
  | .add .. => by simp [exprA, level, opLevel]
  | .empty => by simp

theorem expr_wf : ∀ (e : TExpr), tGood e → wf .expr (exprA e)
  | .phi l i j, _ => trivial
  | .coef offs vec, h => by simp [exprA, wf, level, idx_wf, idx_ne vec h]
  | .mul a b, h => by
    obtain ⟨⟨l, i, j, rfl⟩, h2⟩ := h
    simp [exprA, wf, opLevel, level, expr_wf b h2]
  | .add a b, h => by
    have hl := (expr_level a).resolve_right (by rintro rfl; exact h.1)
    obtain ⟨c, d, rfl⟩ := h.2.2
    have h1 := expr_wf a h.1
    have h2 := expr_wf _ h.2.1
    refine ⟨h1, h2, 2, rfl, hl, ?_⟩
    simp [exprA, level, opLevel]
  | .empty, h => h.elim

end Interp.PyParse
