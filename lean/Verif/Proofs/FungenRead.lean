import Verif.Proofs.FunPrint

/-!
# The one-line functions of `fungen.py` as syntax trees
-/

namespace Interp.PyParse
open Interp.Spec.PyLang
open Interp.FungenText
open Interp.PyExpr (dec)

set_option linter.unusedSectionVars false

theorem spell_defP (b : Bool) (f : Str) (ps : List Str) (rest : List Piece) :
    spell (defP b f ps rest) = spell (defP b f ps []) ++ spell rest := by
  simp [defP, spell, spell_append]

theorem isName_ascii {c : Char} {s : Str} (h1 : c.isDigit = false) (h2 : c ≠ ' ') (h3 : c ≠ '#')
    (h4 : ∀ x ∈ c :: s, idChar x = true) (h5 : keyword (c :: s) = none) : IsName (c :: s) := ⟨⟨c, s, rfl, h1, h2, h3⟩, h4, h5⟩

macro "isname" : tactic => `(tactic| exact isName_ascii (by decide) (by decide) (by decide) (by decide) (by decide))

macro "isnames" : tactic => `(tactic| (
  intro s hs
  simp only [List.mem_cons, List.not_mem_nil, or_false] at hs
  rcases hs with hs | hs | hs <;> rw [hs] <;> isname))

macro "isnames2" : tactic => `(tactic| (
  intro s hs
  simp only [List.mem_cons, List.not_mem_nil, or_false] at hs
  rcases hs with hs | hs <;> rw [hs] <;> isname))

theorem spell_int (st : Style) (n : ℕ) : spell (pr st (.int n)) = dec n := by
  simp [pr, spell, Piece.spell, spellTok, dec]

theorem spell_at (st : Style) (e i : PExpr) :
    spell (pr st (at1 e i)) = spell (pr st e) ++ '[' :: (spell (pr { st with comma := st.sub } i) ++ [']']) := by
  simp [pr, spell, spell_append, Piece.spell, spellTok, spellOp]

theorem spell_name (st : Style) (s : Str) : spell (pr st (.name s)) = s := by
  simp [pr, spell, Piece.spell, spellTok]

theorem spell_call (st : Style) (f es : PExpr) : spell (pr st (.call f es)) = spell (pr st f) ++ '(' :: (spell (pr st es) ++ [')']) := by
  simp [pr, spell, spell_append, Piece.spell, spellTok, spellOp]

theorem spell_index (st : Style) (f es : PExpr) :
    spell (pr st (.index f es)) = spell (pr st f) ++ '[' :: (spell (pr { st with comma := st.sub } es) ++ [']']) := by
  simp [pr, spell, spell_append, Piece.spell, spellTok, spellOp]

theorem tuple_text' {α : Type} (st : Style) (A : α → PExpr) (T : α → Str) (as : List α) (hn : ∀ a ∈ as, A a ≠ .nil)
    (h : ∀ a ∈ as, spell (pr { st with comma := st.tup } (A a)) = T a) :
    spell (pr st (.tuple (L (as.map A)) true)) = '(' :: (join (commaText st.tup) (as.map T) ++ (commaText st.trail ++ [')'])) := by
  rw [spell_tuple, spell_L _ _ (by
    intro e he
    obtain ⟨a, ha, rfl⟩ := List.mem_map.mp he
    exact hn a ha), List.map_map]
  congr 3
  exact List.map_congr_left h

theorem tuple_text {α : Type} (st : Style) (A : α → PExpr) (T : α → Str) (as : List α) (hn : ∀ a ∈ as, A a ≠ .nil)
    (h : ∀ a ∈ as, spell (pr st (A a)) = T a) (hs : st.tup = st.comma := by rfl) :
    spell (pr st (.tuple (L (as.map A)) true)) = '(' :: (join (commaText st.comma) (as.map T) ++ (commaText st.trail ++ [')'])) := by
  rw [← hs]
  exact tuple_text' st A T as hn (by rw [show ({ st with comma := st.tup } : Style) = st by cases st; simp_all]; exact h)

theorem fine_map {α : Type} {A : α → PExpr} {as : List α} (h : ∀ a, fine (A a)) : fine (L (as.map A)) :=
  fine_L (by
    intro e he
    obtain ⟨a, _, rfl⟩ := List.mem_map.mp he
    exact h a)

theorem wf_tuple_map {α : Type} {A : α → PExpr} {as : List α} (h : ∀ a, wf .expr (A a)) (hn : as ≠ []) :
    wf .expr (.tuple (L (as.map A)) true) :=
  wf_tuple (by
    intro e he
    obtain ⟨a, _, rfl⟩ := List.mem_map.mp he
    exact h a) (by simpa using hn)

theorem range_ne {k : ℕ} (h : 1 ≤ k) : List.range k ≠ [] := by
  intro h'
  have := congrArg List.length h'
  simp at this; omega

/-! ### `fmap` -/

def mapBody1 (i : ℕ) : PExpr := .call (.name ['f']) (L [at1 (.name ['t']) (.int i)])
def mapBody2 (i : ℕ) : PExpr := .call (.name ['f']) (L [at1 (.name ['t', '1']) (.int i), at1 (.name ['t', '2']) (.int i)])
def mapBodyX (i : ℕ) : PExpr := .call (.name ['f']) (L [at1 (.name ['t', '1']) (.int i), .name ['x']])

def mapFun1 (k : ℕ) : Fun := ⟨[['f'], ['t']], .tuple (L ((List.range k).map mapBody1)) true⟩
def mapFun2 (k : ℕ) : Fun := ⟨[['f'], ['t', '1'], ['t', '2']], .tuple (L ((List.range k).map mapBody2)) true⟩
def mapFunX (k : ℕ) : Fun := ⟨[['f'], ['t', '1'], ['x']], .tuple (L ((List.range k).map mapBodyX)) true⟩

def spaced : Style := ⟨true, true, false, true, false⟩

theorem fmap_read1 (o : Option ℕ) {k : ℕ} (hk : 1 ≤ k) : ∃ t, fmapText [o, some k] = some t ∧ Ev (fun n => pFun n t) (mapFun1 k) := by
  refine ⟨_, rfl, ?_⟩
  have := fun_ev true spaced (f := c!"__map") (ps := [['f'], ['t']]) (e := .tuple (L ((List.range k).map mapBody1)) true)
    (by isname) (by isnames2) (by simp)
    (fine_map fun i => ⟨by show IsName ['f']; isname, ⟨⟨by show IsName ['t']; isname, trivial, trivial⟩, trivial⟩⟩)
    (wf_tuple_map (fun i => by simp [mapBody1, wf, level, L]) (range_ne hk))
  rw [spell_defP, tuple_text spaced mapBody1 (fun i => c!"f(t[" ++ dec i ++ c!"])") _ (by simp [mapBody1])
    (fun i _ => by simp [mapBody1, L, spell_call, spell_name, pr, spell, spell_append, Piece.spell, spellTok, spellOp, dec])] at this
  simpa [mapFun1, defP, namesP, gap, spell, Piece.spell, spellTok, spellOp, spaced, commaText] using this

theorem fmap_read2 (o : Option ℕ) {k : ℕ} (hk : 1 ≤ k) :
    ∃ t, fmapText [o, some k, some k] = some t ∧ Ev (fun n => pFun n t) (mapFun2 k) := by
  refine ⟨_, by rw [fmapText, if_neg (by simp)], ?_⟩
  have := fun_ev true spaced (f := c!"__map") (ps := [['f'], ['t', '1'], ['t', '2']]) (e := .tuple (L ((List.range k).map mapBody2)) true)
    (by isname) (by isnames) (by simp)
    (fine_map fun i => ⟨by show IsName ['f']; isname, ⟨by show IsName ['t', '1']; isname, trivial, trivial⟩,
      ⟨by show IsName ['t', '2']; isname, trivial, trivial⟩, trivial⟩)
    (wf_tuple_map (fun i => by simp [mapBody2, wf, level, L]) (range_ne hk))
  rw [spell_defP, tuple_text spaced mapBody2 (fun i => c!"f(t1[" ++ dec i ++ c!"], t2[" ++ dec i ++ c!"])") _ (by simp [mapBody2])
    (fun i _ => by simp [mapBody2, L, spell_call, spell_name, pr, spell, spell_append, Piece.spell, spellTok, spellOp, dec, spaced, gap])] at this
  simpa [mapFun2, defP, namesP, gap, spell, Piece.spell, spellTok, spellOp, spaced, commaText] using this

theorem fmap_readX (o : Option ℕ) {k : ℕ} (hk : 1 ≤ k) :
    ∃ t, fmapText [o, some k, none] = some t ∧ Ev (fun n => pFun n t) (mapFunX k) := by
  refine ⟨_, rfl, ?_⟩
  have := fun_ev true spaced (f := c!"__map") (ps := [['f'], ['t', '1'], ['x']]) (e := .tuple (L ((List.range k).map mapBodyX)) true)
    (by isname) (by isnames) (by simp)
    (fine_map fun i => ⟨by show IsName ['f']; isname, ⟨by show IsName ['t', '1']; isname, trivial, trivial⟩,
      by show IsName ['x']; isname, trivial⟩)
    (wf_tuple_map (fun i => by simp [mapBodyX, wf, level, L]) (range_ne hk))
  rw [spell_defP, tuple_text spaced mapBodyX (fun i => c!"f(t1[" ++ dec i ++ c!"], x)") _ (by simp [mapBodyX])
    (fun i _ => by simp [mapBodyX, L, spell_call, spell_name, pr, spell, spell_append, Piece.spell, spellTok, spellOp, dec, spaced, gap])] at this
  simpa [mapFunX, defP, namesP, gap, spell, Piece.spell, spellTok, spellOp, spaced, commaText] using this

/-! ### `funzip` -/

def zipRow (k j : ℕ) : PExpr := .tuple (L ((List.range k).map fun i => at1 (at1 (.name ['t']) (.int i)) (.int j))) true

def zipFun (k l : ℕ) : Fun := ⟨[['t']], .tuple (L ((List.range l).map (zipRow k))) true⟩

def half : Style := ⟨true, true, false, false, false⟩

theorem funzip_read {counts : List ℕ} {l : ℕ} (hn : counts ≠ []) (h : ∀ c ∈ counts, c = l) (hl : 1 ≤ l) :
    ∃ t, funzipText counts = .ok t ∧ Ev (fun n => pFun n t) (zipFun counts.length l) := by
  obtain ⟨c, cs, rfl⟩ := List.exists_cons_of_ne_nil hn
  obtain rfl := h c (by simp)
  have hall : (cs.all (· = c)) = true := by
    rw [List.all_eq_true]; intro x hx; simpa using h x (by simp [hx])
  refine ⟨_, by rw [funzipText]; simp only [hall, not_true_eq_false, if_false]; rfl, ?_⟩
  have := fun_ev true half (f := c!"funzip") (ps := [['t']])
    (e := .tuple (L ((List.range c).map (zipRow (c :: cs).length))) true)
    (by isname) (by intro s hs; simp only [List.mem_singleton] at hs; subst hs; isname) (by simp)
    (fine_map fun j => fine_map fun i => ⟨⟨by show IsName ['t']; isname, trivial, trivial⟩, trivial, trivial⟩)
    (wf_tuple_map (fun j => wf_tuple_map (fun i => by simp [wf, level]) (range_ne (by simp))) (range_ne hl))
  rw [spell_defP, tuple_text half (zipRow (c :: cs).length)
    (fun j => printTuple ((List.range (c :: cs).length).map fun i => c!"t[" ++ dec i ++ c!"][" ++ dec j ++ c!"]")) _
    (by simp [zipRow]) (fun j _ => by
      rw [zipRow, tuple_text half _ (fun i => c!"t[" ++ dec i ++ c!"][" ++ dec j ++ c!"]") _ (by simp)
        (fun i _ => by simp [spell_at, spell_name, spell_int])]
      simp [printTuple, half, commaText])] at this
  simpa [zipFun, defP, namesP, gap, spell, Piece.spell, spellTok, spellOp, half, commaText, printTuple, Function.comp_def] using this

/-! ### `extract_row` -/

def rowItem (i : ℕ) : PExpr := .index (.name ['a']) (L [.name ['n'], .int i])

def rowFun (d : ℕ) : Fun := ⟨[['a'], ['n'], ['t', 'u', 'p']], .tuple (L ((List.range d).map rowItem)) true⟩

theorem extractRow_read {d : ℕ} (hd : 1 ≤ d) : Ev (fun n => pFun n (extractRowText d)) (rowFun d) := by
  have := fun_ev true half (f := c!"extract_row") (ps := [['a'], ['n'], ['t', 'u', 'p']]) (e := .tuple (L ((List.range d).map rowItem)) true)
    (by isname) (by isnames) (by simp)
    (fine_map fun i => ⟨by show IsName ['a']; isname, by show IsName ['n']; isname, trivial, trivial⟩)
    (wf_tuple_map (fun i => by simp [rowItem, wf, level, L]) (range_ne hd))
  rw [spell_defP, tuple_text half rowItem (fun i => c!"a[n," ++ dec i ++ c!"]") _ (by simp [rowItem])
    (fun i _ => by simp [rowItem, L, spell_index, spell_name, pr, spell, Piece.spell, spellTok, spellOp, dec, half, gap])] at this
  simpa [rowFun, defP, namesP, gap, spell, Piece.spell, spellTok, spellOp, half, commaText, extractRowText] using this

/-! ### `get_coeffs` -/

/-- `I[j]`. -/
def ij (j : ℕ) : PExpr := at1 (.name ['I']) (.int j)

/-- The subscripts `I[j]` and `I[j]+1`. -/
def ij1 (j : ℕ) : PExpr := .bin .plus (ij j) (.int 1)

/-- The nested tuple over `d` more dimensions, after the subscripts `pre`. -/
def coeffA : ℕ → ℕ → List PExpr → PExpr
  | 0, _, pre => .index (.name ['X']) (L pre)
  | d + 1, j, pre => .tuple (L [coeffA d (j + 1) (pre ++ [ij j]), coeffA d (j + 1) (pre ++ [ij1 j])]) false

def coeffFun (d : ℕ) : Fun := ⟨[['X'], ['I']], coeffA d 0 []⟩

def tight : Style := ⟨false, false, false, false, false⟩

theorem coeffA_ne : ∀ (d j : ℕ) (pre : List PExpr), coeffA d j pre ≠ .nil
  | 0, _, _ => by simp [coeffA]
  | _ + 1, _, _ => by simp [coeffA]

theorem product_length {α : Type} (R : ℕ → List α) (hR : ∀ j, (R j).length = 2) : ∀ (d j : ℕ),
    (product ((List.range' j d).map R)).length = 2 ^ d
  | 0, _ => rfl
  | d + 1, j => by
    have ih := product_length R hR d (j + 1)
    obtain ⟨a, b, hab⟩ := List.length_eq_two.mp (hR j)
    simp [List.range'_succ, product, hab, ih, pow_succ]
    omega

theorem ij_text (j : ℕ) : spell (pr tight (ij j)) = c!"I[" ++ dec j ++ c!"]" := by
  simp [ij, spell_at, spell_name, spell_int]

theorem ij1_text (j : ℕ) : spell (pr tight (ij1 j)) = c!"I[" ++ dec j ++ c!"]+1" := by
  have := ij_text j
  rw [ij1, pr, spell_append, this]
  simp [gap, tight, pr, spell, Piece.spell, spellTok, spellOp, Nat.toDigits, Nat.toDigitsCore, Nat.digitChar]

/-- The subscripts as texts. -/
def ijTexts (j : ℕ) : List Str := [spell (pr tight (ij j)), spell (pr tight (ij1 j))]

theorem nest_spell : ∀ (d j : ℕ) (pre : List PExpr), (∀ e ∈ pre, e ≠ .nil) →
    nest d ((product ((List.range' j d).map ijTexts)).map
      fun e => c!"X[" ++ join c!"," ((pre.map fun e => spell (pr tight e)) ++ e) ++ c!"]") = spell (pr tight (coeffA d j pre))
  | 0, j, pre, h => by
    have := spell_L tight pre h
    simp only [List.range'_zero, List.map_nil, product, List.map_cons, nest, List.headD_cons, List.append_nil, coeffA, spell_index,
      spell_name]
    rw [show ({ tight with comma := tight.sub } : Style) = tight from rfl, this]
    simp [tight, commaText]
  | d + 1, j, pre, h => by
    have hl := product_length ijTexts (fun _ => rfl) d (j + 1)
    have hh : ∀ e', e' = ij j ∨ e' = ij1 j → ∀ e ∈ pre ++ [e'], e ≠ .nil := by
      rintro e' he' e he
      rcases List.mem_append.mp he with he | he
      · exact h e he
      · simp only [List.mem_singleton] at he
        subst he
        rcases he' with rfl | rfl <;> simp [ij, ij1]
    have i0 := nest_spell d (j + 1) (pre ++ [ij j]) (hh _ (Or.inl rfl))
    have i1 := nest_spell d (j + 1) (pre ++ [ij1 j]) (hh _ (Or.inr rfl))
    simp only [List.map_append, List.map_cons, List.map_nil, List.append_assoc, List.cons_append, List.nil_append] at i0 i1
    simp only [List.range'_succ, List.map_cons, product, ijTexts, List.flatMap_cons, List.flatMap_nil, List.append_nil, List.map_append,
      List.map_map, nest]
    rw [List.take_append_of_le_length (by simp [hl]), List.take_of_length_le (by simp [hl]),
      List.drop_append_of_le_length (by simp [hl]), List.drop_of_length_le (by simp [hl])]
    simp only [List.nil_append]
    simp only [Function.comp_def, List.append_assoc, List.cons_append, List.nil_append]
    rw [i0, i1, coeffA, join_cons, join_one]
    simp [pr, L, gap, tight, spell, spell_append, Piece.spell, spellTok, spellOp]

theorem coeffA_fine : ∀ (d j : ℕ) (pre : List PExpr), (∀ e ∈ pre, fine e) → fine (coeffA d j pre)
  | 0, _, pre, h => ⟨by show IsName ['X']; isname, fine_L h⟩
  | d + 1, j, pre, h => by
    have hi : fine (ij j) := ⟨by show IsName ['I']; isname, trivial, trivial⟩
    have hh : ∀ e', fine e' → ∀ e ∈ pre ++ [e'], fine e := by
      intro e' he' e he
      rcases List.mem_append.mp he with he | he
      · exact h e he
      · simp only [List.mem_singleton] at he
        exact he ▸ he'
    exact ⟨coeffA_fine d _ _ (hh _ hi), coeffA_fine d _ _ (hh _ ⟨rfl, by simp, hi, trivial⟩), trivial⟩

theorem coeffA_wf : ∀ (d j : ℕ) (pre : List PExpr), (∀ e ∈ pre, wf .expr e) → (d = 0 → pre ≠ []) → wf .expr (coeffA d j pre)
  | 0, _, pre, h, hn => by
    refine ⟨trivial, rfl, wf_subs_L h, ?_⟩
    obtain ⟨e, es, rfl⟩ := List.exists_cons_of_ne_nil (hn rfl)
    simp [L]
  | d + 1, j, pre, h, _ => by
    have hi : wf .expr (ij j) := by simp [ij, wf, level]
    have hi1 : wf .expr (ij1 j) := ⟨hi, trivial, 2, rfl, by simp [ij, level], by simp [level]⟩
    have hh : ∀ e', wf .expr e' → ∀ e ∈ pre ++ [e'], wf .expr e := by
      intro e' he' e he
      rcases List.mem_append.mp he with he | he
      · exact h e he
      · simp only [List.mem_singleton] at he
        exact he ▸ he'
    exact ⟨⟨coeffA_wf d _ _ (hh _ hi) (by simp), coeffA_wf d _ _ (hh _ hi1) (by simp), trivial⟩, by simp [L], by simp [L]⟩

theorem getCoeffs_read {m d : ℕ} (hd : 1 ≤ d) (hm : m ≤ d) :
    ∃ t, getCoeffsText m d = some t ∧ Ev (fun n => pFun n t) (coeffFun d) := by
  refine ⟨_, by rw [getCoeffsText, if_neg (by omega)], ?_⟩
  have := fun_ev false tight (f := c!"get_coeffs") (ps := [['X'], ['I']]) (e := coeffA d 0 [])
    (by isname) (by isnames2) (by simp) (coeffA_fine _ _ _ (by simp)) (coeffA_wf _ _ _ (by simp) (by omega))
  have h := nest_spell d 0 [] (by simp)
  have hT : ijTexts = fun j => [c!"I[" ++ dec j ++ c!"]", c!"I[" ++ dec j ++ c!"]+1"] := by
    funext j; rw [ijTexts, ij_text, ij1_text]
  rw [← List.range_eq_range', hT] at h
  rw [spell_defP, ← h] at this
  simpa [coeffFun, defP, namesP, gap, spell, Piece.spell, spellTok, spellOp] using this

/-! ### `tensor_reduction` -/

def lj (j : ℕ) : PExpr := at1 (.name ['l']) (.int j)

/-- `C[i0][i1]...`. -/
def atAll (e : PExpr) (inds : List ℕ) : PExpr := inds.foldl (fun e i => at1 e (.int i)) e

def redA : ℕ → ℕ → List ℕ → PExpr
  | 0, _, inds => atAll (.name ['C']) inds
  | d + 1, j, inds =>
    .bin .plus (.bin .star (.paren (.bin .minus (.int 1) (lj j))) (.paren (redA d (j + 1) (inds ++ [0]))))
      (.bin .star (lj j) (.paren (redA d (j + 1) (inds ++ [1]))))

def redFun (d : ℕ) : Fun := ⟨[['C'], ['l']], redA d 0 []⟩

def loosePlus : Style := ⟨false, false, false, false, true⟩

theorem spell_atAll (st : Style) (inds : List ℕ) (e : PExpr) :
    spell (pr st (atAll e inds)) = spell (pr st e) ++ (inds.map fun i => '[' :: (dec i ++ [']'])).flatten := by
  induction inds generalizing e with
  | nil => simp [atAll]
  | cons i is ih =>
    have := ih (at1 e (.int i))
    rw [atAll] at this
    rw [atAll, List.foldl_cons, this, spell_at, spell_int]
    simp

theorem join_brackets : ∀ (l : List Str), l ≠ [] →
    '[' :: (join c!"][" l ++ [']']) = (l.map fun s => '[' :: (s ++ [']'])).flatten
  | [], h => absurd rfl h
  | [s], _ => by simp [join_one]
  | s :: s' :: l, _ => by
    have ih := join_brackets (s' :: l) (by simp)
    rw [join_cons, List.map_cons, List.flatten_cons, ← ih]
    simp

theorem red_spell : ∀ (d j : ℕ) (inds : List ℕ), (d = 0 → inds ≠ []) →
    genReduction c!"C" ((List.range' j d).map fun i => c!"l[" ++ dec i ++ c!"]") inds = spell (pr loosePlus (redA d j inds))
  | 0, j, inds, h => by
    have := join_brackets (inds.map dec) (by simpa using h rfl)
    simp only [List.range'_zero, List.map_nil, genReduction, redA, spell_atAll, spell_name]
    simp only [List.append_assoc, List.cons_append, List.nil_append, List.singleton_append]
    rw [this]
    simp [Function.comp_def]
  | d + 1, j, inds, _ => by
    have i0 := red_spell d (j + 1) (inds ++ [0]) (by simp)
    have i1 := red_spell d (j + 1) (inds ++ [1]) (by simp)
    have el : spell (pr loosePlus (lj j)) = c!"l[" ++ dec j ++ c!"]" := by
      simp [lj, spell_at, spell_name, spell_int]
    simp only [List.range'_succ, List.map_cons, genReduction]
    rw [show List.range 2 = [0, 1] from rfl]
    simp only [List.map_cons, List.map_nil, i0, i1, join_cons, join_one, redA]
    simp only [pr, spell_append, spell, Piece.spell, el, spellTok, spellOp]
    simp [gap, loosePlus, spell, Piece.spell, spellTok, spellOp, Nat.toDigits, Nat.toDigitsCore, Nat.digitChar]

theorem atAll_fine {e : PExpr} (h : fine e) (inds : List ℕ) : fine (atAll e inds) := by
  induction inds generalizing e with
  | nil => exact h
  | cons i is ih => exact ih (e := at1 e (.int i)) ⟨h, trivial, trivial⟩

theorem atAll_wf {e : PExpr} (h : wf .expr e) (h5 : level e = 5) (inds : List ℕ) : wf .expr (atAll e inds) := by
  induction inds generalizing e with
  | nil => exact h
  | cons i is ih => exact ih (e := at1 e (.int i)) (by simp [wf, h, h5]) rfl

theorem redA_fine : ∀ (d j : ℕ) (inds : List ℕ), fine (redA d j inds)
  | 0, _, inds => atAll_fine (by show IsName ['C']; isname) inds
  | d + 1, j, inds => by
    have hl : fine (lj j) := ⟨by show IsName ['l']; isname, trivial, trivial⟩
    exact ⟨rfl, by simp, ⟨rfl, by simp, ⟨rfl, by simp, trivial, hl⟩, redA_fine d _ _⟩, ⟨rfl, by simp, hl, redA_fine d _ _⟩⟩

theorem redA_wf : ∀ (d j : ℕ) (inds : List ℕ), wf .expr (redA d j inds)
  | 0, _, inds => atAll_wf (e := .name ['C']) trivial rfl inds
  | d + 1, j, inds => by
    have hl : wf .expr (lj j) := by simp [lj, wf, level]
    have h0 := redA_wf d (j + 1) (inds ++ [0])
    have h1 := redA_wf d (j + 1) (inds ++ [1])
    refine ⟨⟨⟨trivial, hl, 2, rfl, by simp [level], by simp [lj, level]⟩, h0, 3, rfl, by simp [level], by simp [level]⟩,
      ⟨hl, h1, 3, rfl, by simp [lj, level], by simp [level]⟩, 2, rfl, by simp [level, opLevel], by simp [level, opLevel]⟩

theorem reduction_read {d : ℕ} (hd : 1 ≤ d) : Ev (fun n => pFun n (reductionText d)) (redFun d) := by
  have := fun_ev false loosePlus (f := c!"tensor_reduction") (ps := [['C'], ['l']]) (e := redA d 0 [])
    (by isname) (by isnames2) (by simp) (redA_fine _ _ _) (redA_wf _ _ _)
  have h := red_spell d 0 [] (by omega)
  rw [← List.range_eq_range'] at h
  rw [spell_defP, ← h] at this
  simpa [redFun, defP, namesP, gap, spell, Piece.spell, spellTok, spellOp, reductionText] using this

end Interp.PyParse
