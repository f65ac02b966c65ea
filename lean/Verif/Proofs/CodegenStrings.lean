import Verif.Proofs.CodegenLines

/-!
# Strings computed by the code generator

The strings of `get_values`, of the names `val_...` and of the tuple of orders are those of
`Spec/ProgramText.lean`.
-/

namespace Interp.CodegenText

open Tempita PyExpr Spec.Text Codegen

/-! ### `get_values` -/

theorem phi_text (l i j : ℕ) : phiText l i j = (phi l i j).toList := by
  unfold phiText phi
  split_ifs <;> simp [dec, Nat.repr, String.toList_append]

theorem expr_foldl_add : ∀ (es : List TExpr) (a : TExpr),
    (expr (es.foldl .add a)).toList = List.intercalate c!" + " ((a :: es).map fun e => (expr e).toList)
  | [], a => by simp [List.intercalate]
  | e :: es, a => by
    rw [List.foldl_cons, expr_foldl_add es, List.map_cons, List.map_cons, List.map_cons]
    rw [List.intercalate_cons_cons]
    cases es with
    | nil => simp [expr, List.intercalate, String.toList_append]
    | cons b es =>
      rw [List.map_cons, List.intercalate_cons_cons, List.intercalate_cons_cons]
      simp [expr, String.toList_append]

theorem joinPlus_text (es : List TExpr) :
    (expr (joinPlus es)).toList = List.intercalate c!" + " (es.map fun e => (expr e).toList) := by
  cases es with
  | nil => rfl
  | cons e es => exact expr_foldl_add es e

theorem genTrex_text (c : List ℕ → Str) (c' : List ℕ → TExpr) (hc : ∀ l, c l = (expr (c' l)).toList) :
    ∀ (hs : List (List TExpr)) (inds : List ℕ),
      genTrexText (hs.map fun h => h.map fun e => (expr e).toList) c inds = (expr (genTrex hs c' inds)).toList
  | [], inds => hc inds
  | h :: hs, inds => by
    rw [List.map_cons, genTrexText, genTrex, joinPlus_text]
    congr 1
    apply List.ext_getElem
    · simp
    · intro i h1 h2
      simp [genTrex_text c c' hc hs, expr, String.toList_append]

theorem indices_text : ∀ (offs : List ℕ) (i : ℕ),
    (indices i offs).toList = List.intercalate c!", " (offs.mapIdx fun n o => indText (i + n) o)
  | [], _ => rfl
  | [o], i => by
    by_cases h : o = 0 <;>
      simp [indices, indText, h, Nat.pos_iff_ne_zero, List.intercalate, String.toList_append, dec, Nat.repr]
  | o :: o' :: os, i => by
    have ih := indices_text (o' :: os) (i + 1)
    rw [indices, String.toList_append, ih]
    conv_rhs => rw [List.mapIdx_cons]
    have e : (List.mapIdx (fun n o => indText (i + (n + 1)) o) (o' :: os))
        = List.mapIdx (fun n o => indText (i + 1 + n) o) (o' :: os) := by
      congr 1
      funext n o
      congr 1
      omega
    rw [e, List.mapIdx_cons, List.intercalate_cons_cons]
    by_cases h : o = 0 <;>
      simp [indText, h, Nat.pos_iff_ne_zero, String.toList_append, dec, Nat.repr]
    simp

theorem coef_text (m : Bool) (offs : List ℕ) :
    coefText m c!"i_x" offs = (expr (.coef offs m)).toList := by
  have h := indices_text offs 0
  have e : (fun n o => indText (0 + n) o) = indText := by funext n o; rw [Nat.zero_add]
  rw [e] at h
  cases m <;> simp [coefText, expr, String.toList_append, h]

theorem getValues_text (d : ℕ) (m : Bool) (k : ℕ) (diffs : Option (List ℕ)) :
    getValuesText d m k c!"i_x" diffs = (expr (getValues d m k diffs)).toList := by
  unfold getValuesText getValues
  dsimp only
  rw [← genTrex_text _ _ (coef_text m)]
  refine congrArg (fun l => genTrexText l (coefText m c!"i_x") []) ?_
  apply List.ext_getElem
  · simp
  · intro i h1 h2
    simp [expr, phi_text]

theorem newline_phi (l i j : ℕ) : '\n' ∉ (phi l i j).toList := by
  have := newline_not_mem_dec
  unfold dec at this
  unfold phi
  split_ifs <;> simp [Nat.repr, String.toList_append, this]

theorem newline_indices : ∀ (offs : List ℕ) (i : ℕ), '\n' ∉ (indices i offs).toList
  | [], _ => by simp [indices]
  | [o], i => by
    have := newline_not_mem_dec
    unfold dec at this
    by_cases h : o = 0 <;> simp [indices, h, Nat.repr, String.toList_append, this]
  | o :: o' :: os, i => by
    have := newline_not_mem_dec
    unfold dec at this
    have ih := newline_indices (o' :: os) (i + 1)
    by_cases h : o = 0 <;> simp [indices, h, Nat.repr, String.toList_append, this, ih]

theorem newline_expr : ∀ (e : TExpr), '\n' ∉ (expr e).toList
  | .phi l i j => newline_phi l i j
  | .coef offs vec => by cases vec <;> simp [expr, String.toList_append, newline_indices]
  | .mul a b => by simp [expr, String.toList_append, newline_expr a, newline_expr b]
  | .add a b => by simp [expr, String.toList_append, newline_expr a, newline_expr b]
  | .empty => by simp [expr]

/-! ### Tuples -/

/-- A tuple of derivative orders. -/
def ordVal (o : List ℕ) : Val := .tuple (o.map .int)

theorem ordersVal_some (os : List (List ℕ)) : ordersVal (some os) = .tuple (os.map ordVal) := rfl

theorem reprRest_text {α : Type} (v : α → Val) : ∀ (xs : List α),
    reprRest (xs.map v) = (xs.map fun x => c!", " ++ (v x).repr).flatten
  | [] => rfl
  | x :: xs => by simp [reprRest, reprRest_text v xs]

theorem intercalate_text (s : String) : ∀ (as : List String) (a : String),
    (s.intercalate (a :: as)).toList = a.toList ++ (as.map fun a => s.toList ++ a.toList).flatten
  | [], a => by simp
  | b :: as, a => by simp [String.intercalate_cons_cons, intercalate_text s as b]

theorem tuple_text (a b : String) (as : List String) : (tuple (a :: b :: as)).toList
    = c!"(" ++ (a.toList ++ ((b :: as).map fun a => c!", " ++ a.toList).flatten) ++ c!")" := by
  have h : tuple (a :: b :: as) = "(" ++ ", ".intercalate (a :: b :: as) ++ ")" := rfl
  rw [h, String.toList_append, String.toList_append, intercalate_text]
  rfl

theorem repr_tuple {α : Type} (v : α → Val) (f : α → String) (h : ∀ x, (v x).repr = (f x).toList)
    (xs : List α) : (Val.tuple (xs.map v)).repr = (tuple (xs.map f)).toList := by
  cases xs with
  | nil => simp [Val.repr, tuple]
  | cons x xs =>
    cases xs with
    | nil => simp [Val.repr, tuple, h, String.toList_append]
    | cons y ys =>
      rw [List.map_cons, List.map_cons, Val.repr, ← List.map_cons, reprRest_text]
      rw [List.map_cons, List.map_cons (f := f), List.map_cons (f := f), tuple_text]
      simp [h, Function.comp_def]

theorem repr_ord (o : List ℕ) : (ordVal o).repr = (tuple (o.map toString)).toList :=
  repr_tuple _ _ (fun n => by rw [Val.repr, toList_toString]) o

theorem repr_orders (os : List (List ℕ)) : (ordersVal (some os)).repr = (orders (some os)).toList :=
  repr_tuple _ _ repr_ord os

theorem newline_tuple : ∀ (as : List String), (∀ a ∈ as, '\n' ∉ a.toList) → '\n' ∉ (tuple as).toList
  | [], _ => by simp [tuple]
  | [a], h => by simpa [tuple, String.toList_append] using h a (by simp)
  | a :: b :: as, h => by
    have h1 := h a (by simp)
    have h2 := h b (by simp)
    have h3 : ∀ c ∈ as, '\n' ∉ c.toList := fun c hc => h c (by simp [hc])
    rw [tuple_text]
    simpa [h1, h2] using h3

theorem newline_orders : ∀ (os : Option (List (List ℕ))), '\n' ∉ (orders os).toList
  | none => by simp [orders]
  | some os => by
    refine newline_tuple _ fun a ha => ?_
    obtain ⟨o, _, rfl⟩ := List.mem_map.mp ha
    refine newline_tuple _ fun a ha => ?_
    obtain ⟨n, _, rfl⟩ := List.mem_map.mp ha
    rw [toList_toString]
    exact newline_not_mem_dec n

/-! ### Names of temporaries -/

theorem dec_ne_nil (n : ℕ) : dec n ≠ [] := by
  intro h
  have := @Nat.length_toDigits_pos 10 n
  rw [dec] at h
  simp [h] at this

theorem isDigit_dec {n : ℕ} {c : Char} (h : c ∈ dec n) : c.isDigit = true :=
  Nat.isDigit_of_mem_toDigits (b := 10) (by norm_num) (by norm_num) h

theorem not_mem_dec {n : ℕ} {c : Char} (hc : c.isDigit = false) : c ∉ dec n := fun h => by
  rw [isDigit_dec h] at hc; cases hc

theorem filter_dec (n : ℕ) (p : Char → Bool) (hp : ∀ c, c.isDigit = true → p c = true) :
    (dec n).filter p = dec n :=
  List.filter_eq_self.mpr fun c hc => hp c (isDigit_dec hc)

/-- What the parentheses of `repr` enclose. -/
def inner : List ℕ → Str
  | [] => []
  | [n] => dec n ++ c!","
  | n :: ns => dec n ++ (ns.map fun m => c!", " ++ dec m).flatten

theorem repr_inner (o : List ℕ) : (ordVal o).repr = '(' :: (inner o ++ [')']) := by
  cases o with
  | nil => rfl
  | cons n o =>
    cases o with
    | nil => simp [ordVal, Val.repr, inner]
    | cons m o =>
      rw [ordVal, List.map_cons, List.map_cons, Val.repr, ← List.map_cons, reprRest_text]
      simp [Val.repr, inner]

theorem inner_head (o : List ℕ) (c : Char) (hc : c.isDigit = false) :
    (inner o = []) ∨ ∃ a s, inner o = a :: s ∧ a ≠ c := by
  cases o with
  | nil => exact .inl rfl
  | cons n o =>
    right
    obtain ⟨a, s, h⟩ := List.exists_cons_of_ne_nil (dec_ne_nil n)
    have ha : a ≠ c := fun e => by
      have : a.isDigit = true := isDigit_dec (n := n) (by rw [h]; exact List.mem_cons_self ..)
      rw [e, hc] at this; cases this
    cases o with
    | nil => exact ⟨a, s ++ c!",", by simp [inner, h], ha⟩
    | cons m o => exact ⟨a, s ++ ((m :: o).map fun m => c!", " ++ dec m).flatten, by simp [inner, h], ha⟩

theorem inner_last (o : List ℕ) (c : Char) (hc : c.isDigit = false) (hk : c ≠ ',') :
    (inner o).reverse.dropWhile (· == c) = (inner o).reverse := by
  have key : ∀ n : ℕ, ∀ s : Str, (s ++ dec n).reverse.dropWhile (· == c) = (s ++ dec n).reverse := by
    intro n s
    obtain ⟨a, t, h⟩ := List.exists_cons_of_ne_nil (List.reverse_ne_nil_iff.mpr (dec_ne_nil n))
    have ha : a ≠ c := fun e => by
      have : a.isDigit = true := isDigit_dec (n := n) (by
        rw [← List.mem_reverse, h]; exact List.mem_cons_self ..)
      rw [e, hc] at this; cases this
    rw [List.reverse_append, h, List.cons_append, List.dropWhile_cons]
    simp [ha]
  cases o with
  | nil => rfl
  | cons n o =>
    cases o with
    | nil => simp [inner, Ne.symm hk]
    | cons m o =>
      have : ∃ q s, inner (n :: m :: o) = s ++ dec q := by
        rcases List.eq_nil_or_concat o with h | ⟨o', q, h⟩
        · exact ⟨m, dec n ++ c!", ", by simp [inner, h]⟩
        · exact ⟨q, dec n ++ (((m :: o').map fun m => c!", " ++ dec m).flatten ++ c!", "), by
            simp [inner, h]⟩
      obtain ⟨q, s, h⟩ := this
      rw [h]
      exact key q s

theorem strip_name (o : List ℕ) : stripChar ')' (stripChar '(' (ordVal o).repr) = inner o := by
  have h1 : stripChar '(' (ordVal o).repr = inner o ++ [')'] := by
    rw [repr_inner, stripChar]
    have : ('(' :: (inner o ++ [')'])).dropWhile (· == '(') = inner o ++ [')'] := by
      rw [List.dropWhile_cons]
      rcases inner_head o '(' rfl with h | ⟨a, s, h, ha⟩
      · simp [h]
      · rw [h]; simp [ha]
    rw [this]
    simp
  rw [h1, stripChar]
  rcases inner_head o ')' rfl with h | ⟨a, s, h, ha⟩
  · simp [h]
  · have : (inner o ++ [')']).dropWhile (· == ')') = inner o ++ [')'] := by
      rw [h]; simp [ha]
    rw [this, List.reverse_append]
    have := inner_last o ')' rfl (by decide)
    simp only [List.reverse_cons, List.reverse_nil, List.nil_append, List.cons_append, List.dropWhile_cons,
      beq_self_eq_true, if_true, this, List.reverse_reverse]

theorem filter_inner (o : List ℕ) :
    ((inner o).filter (· ≠ ',')).filter (· ≠ ' ') = valName o := by
  have hc : ∀ n, (dec n).filter (fun c => decide (c ≠ ',')) = dec n := fun n =>
    filter_dec n _ fun c h => by
      have : c ≠ ',' := fun e => by rw [e] at h; cases h
      simpa using this
  have hs : ∀ n, (dec n).filter (fun c => decide (c ≠ ' ')) = dec n := fun n =>
    filter_dec n _ fun c h => by
      have : c ≠ ' ' := fun e => by rw [e] at h; cases h
      simpa using this
  have key : ∀ ns : List ℕ, (((ns.map fun m => c!", " ++ dec m).flatten).filter (· ≠ ',')).filter (· ≠ ' ')
      = valName ns := by
    intro ns
    induction ns with
    | nil => rfl
    | cons n ns ih =>
      rw [List.map_cons, List.flatten_cons, List.filter_append, List.filter_append, ih]
      rw [List.filter_append, List.filter_append, hc, hs]
      simp [valName, dec]
  cases o with
  | nil => rfl
  | cons n o =>
    cases o with
    | nil =>
      rw [inner, List.filter_append, List.filter_append, hc, hs]
      simp [valName, dec]
    | cons m o =>
      rw [inner, List.filter_append, List.filter_append, hc, hs, key]
      · simp [valName, dec]
      · simp

theorem newline_valName (o : List ℕ) : '\n' ∉ valName o := by
  intro h
  obtain ⟨n, _, hn⟩ := List.mem_flatMap.mp h
  exact newline_not_mem_dec n hn

end Interp.CodegenText
