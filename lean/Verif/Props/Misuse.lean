import Verif.Props.Mlinterp
import Verif.Props.Grids
import Verif.Props.BSplines
import Verif.Props.CompletePoly
import Verif.Model.Objects
import Verif.Model.Filter

/-!
# Exceptions of wrong calls: C96
-/

set_option linter.unusedSectionVars false

namespace Interp.Props
open Interp.Spec Interp.Codegen

/-! ### Grid constructors -/

section grids
open Interp.Cartesian
variable {K : Type} [LT K] [DecidableLT K]

/-- A valid uniform axis. -/
def GoodTriple (g : GridArg K) : Prop := ∃ a b n, g = .triple a b n ∧ a < b ∧ 2 ≤ n

/-- A valid axis for `CGrid`. -/
def GoodAxis (g : GridArg K) : Prop := GoodTriple g ∨ ∃ A n, g = .ndarray A ∧ A.shape = [n] ∧ 2 ≤ n

theorem ucCheck_good {g : GridArg K} (h : GoodTriple g) : ucCheck g = .ok () := by
  obtain ⟨a, b, n, rfl, h1, h2⟩ := h
  simp only [ucCheck, if_neg (not_not.2 h1), if_neg (not_not.2 (show n > 1 by omega))]
  rfl

theorem cCheck_good {g : GridArg K} (h : GoodAxis g) : cCheck g = .ok () := by
  rcases h with ⟨a, b, n, rfl, h1, h2⟩ | ⟨A, n, rfl, h1, h2⟩
  · simp only [cCheck, if_neg (not_not.2 h1), if_neg (not_not.2 (show n > 1 by omega))]
    rfl
  · simp [cCheck, h1, h2]

theorem forM_stop (check : GridArg K → Py Unit) (pre post : List (GridArg K)) (g : GridArg K) (e : Err)
    (hpre : ∀ g ∈ pre, check g = .ok ()) (hg : check g = .error e) : (pre ++ g :: post).forM check = .error e := by
  induction pre with
  | nil =>
    show (check g >>= fun _ => post.forM check) = _
    rw [hg]; rfl
  | cons a pre ih =>
    show (check a >>= fun _ => (pre ++ g :: post).forM check) = _
    rw [hpre a (by simp)]
    exact ih fun g hg => hpre g (by simp [hg])

/-- C96. `UCGrid` stops at the first argument that is not a valid uniform axis: `ValueError` if numba does not know its type,
`AssertionError` otherwise. -/
theorem C96_ucgrid (pre post : List (GridArg K)) (g : GridArg K) (hpre : ∀ g ∈ pre, GoodTriple g) (hg : ¬ GoodTriple g) :
    (g = .other false → ucGrid (pre ++ g :: post) = .error .value) ∧
    (g ≠ .other false → ucGrid (pre ++ g :: post) = .error .assertion) := by
  have key : ∀ e, ucCheck g = .error e → ucGrid (pre ++ g :: post) = .error e := by
    intro e he
    rw [ucGrid, forM_stop ucCheck pre post g e (fun g h => ucCheck_good (hpre g h)) he]; rfl
  constructor
  · rintro rfl; exact key _ rfl
  · intro h
    refine key _ ?_
    cases g with
    | triple a b n =>
      by_cases h1 : a < b
      · have h2 : ¬ n > 1 := fun h2 => hg ⟨a, b, n, rfl, h1, by omega⟩
        simp only [ucCheck, if_neg (not_not.2 h1), if_pos h2]; rfl
      · simp only [ucCheck, if_pos h1]; rfl
    | ndarray A => rfl
    | other t => cases t with
      | true => rfl
      | false => exact absurd rfl h

/-- C96. `CGrid` stops at the first argument that is not a valid axis: `ValueError` if numba does not know its type, `Exception`
if it is neither an array nor a triple, `AssertionError` otherwise. -/
theorem C96_cgrid (pre post : List (GridArg K)) (g : GridArg K) (hpre : ∀ g ∈ pre, GoodAxis g) (hg : ¬ GoodAxis g) :
    (g = .other false → cGrid (pre ++ g :: post) = .error .value) ∧
    (g = .other true → cGrid (pre ++ g :: post) = .error (.exception "Unknown dimension specification")) ∧
    ((∀ t, g ≠ .other t) → cGrid (pre ++ g :: post) = .error .assertion) := by
  have key : ∀ e, cCheck g = .error e → cGrid (pre ++ g :: post) = .error e := by
    intro e he
    rw [cGrid, forM_stop cCheck pre post g e (fun g h => cCheck_good (hpre g h)) he]; rfl
  refine ⟨?_, ?_, ?_⟩
  · rintro rfl; exact key _ rfl
  · rintro rfl; exact key _ rfl
  · intro h
    refine key _ ?_
    cases g with
    | triple a b n =>
      by_cases h1 : a < b
      · have h2 : ¬ n > 1 := fun h2 => hg (Or.inl ⟨a, b, n, rfl, h1, by omega⟩)
        simp only [cCheck, if_neg (not_not.2 h1), if_pos h2]; rfl
      · simp only [cCheck, if_pos h1]; rfl
    | ndarray A =>
      by_cases h1 : A.shape.length = 1
      · obtain ⟨n, hn⟩ := List.length_eq_one_iff.1 h1
        have h2 : ¬ n ≥ 2 := fun h2 => hg (Or.inr ⟨A, n, rfl, hn, h2⟩)
        simp only [cCheck, hn, List.getD_cons_zero, if_pos h2]; rfl
      · simp only [cCheck, if_pos h1]; rfl
    | other t => exact absurd rfl (h t)

/-- C96: a reversed interval after a valid axis. -/
example : ucGrid [.triple (0 : ℚ) 1 5, .triple 3 2 5, .other false] = .error .assertion :=
  (C96_ucgrid [.triple (0 : ℚ) 1 5] [.other false] (.triple 3 2 5)
    (by simpa using ⟨0, 1, 5, rfl, by norm_num, by norm_num⟩)
    (by rintro ⟨a, b, n, h, h1, -⟩; cases h; norm_num at h1)).2 (by simp)

end grids

/-! ### `interp` -/

section interp
open Interp.Mlinterp

/-- The place of the array of values: the second of three arguments, else the first array of the greatest number of
dimensions. -/
def ValuesAt (args : List Ty) (i n : ℕ) : Prop := args[i]? = some (.arr n) ∧
  if args.length = 3 then i = 1
  else (∀ m, Ty.arr m ∈ args → m ≤ n) ∧ ∀ j < i, args[j]? ≠ some (.arr n)

theorem foldl_pyMax_le (l : List ℤ) (x b : ℤ) (hx : x ≤ b) (h : ∀ y ∈ l, y ≤ b) : l.foldl pyMax x ≤ b := by
  induction l generalizing x with
  | nil => exact hx
  | cons y l ih =>
    refine ih _ ?_ fun z hz => h z (by simp [hz])
    have := h y (by simp)
    unfold pyMax; split <;> assumption

theorem le_foldl_pyMax (l : List ℤ) (x : ℤ) : x ≤ l.foldl pyMax x ∧ ∀ y ∈ l, y ≤ l.foldl pyMax x := by
  induction l generalizing x with
  | nil => simp
  | cons y l ih =>
    have h : x ≤ pyMax x y ∧ y ≤ pyMax x y := by unfold pyMax; split <;> omega
    obtain ⟨h1, h2⟩ := ih (pyMax x y)
    refine ⟨h.1.trans h1, fun z hz => ?_⟩
    rcases List.mem_cons.1 hz with rfl | hz
    · exact h.2.trans h1
    · exact h2 z hz

theorem maxDim_eq {l : List ℤ} {b : ℤ} (hb : b ∈ l) (h : ∀ y ∈ l, y ≤ b) : maxDim l = .ok b := by
  cases l with
  | nil => simp at hb
  | cons x l =>
    show Except.ok _ = _
    congr 1
    refine le_antisymm (foldl_pyMax_le l x b (h x (by simp)) fun y hy => h y (by simp [hy])) ?_
    rcases List.mem_cons.1 hb with rfl | hb
    · exact (le_foldl_pyMax l _).1
    · exact (le_foldl_pyMax l x).2 b hb

theorem dim_le {t : Ty} {n : ℕ} (h : ∀ m, t = .arr m → m ≤ n) : t.dim ≤ n := by
  cases t with
  | arr m => simpa [Ty.dim] using h m rfl
  | _ => simp only [Ty.dim]; omega

theorem dim_eq_iff {t : Ty} {n : ℕ} : t.dim = n ↔ t = .arr n := by
  cases t with
  | arr m => simp [Ty.dim]
  | _ => constructor <;> intro h <;> simp [Ty.dim] at h <;> omega

/-- Where the values are, as the code finds them. -/
theorem detect_at {args : List Ty} {i n : ℕ} (h : ValuesAt args i n) :
    detectTypes args = valuesType n i >>= fun v => evalType (args.drop (i + 1)) >>= fun e => pure ⟨i, v, e⟩ := by
  obtain ⟨h1, h2⟩ := h
  have hmem : Ty.arr n ∈ args := List.mem_of_getElem? h1
  have hnd : ndimAt args i = .ok n := by rw [ndimAt, h1]; rfl
  by_cases h3 : args.length = 3
  · rw [if_pos h3] at h2
    subst h2
    have hm : ∃ b, maxDim (args.map Ty.dim) = .ok b := by
      cases args with
      | nil => simp at h3
      | cons a l => exact ⟨_, rfl⟩
    obtain ⟨b, hb⟩ := hm
    simp only [detectTypes, hb, ok_bind, if_pos h3, hnd]
  · rw [if_neg h3] at h2
    have hm : maxDim (args.map Ty.dim) = .ok (n : ℤ) := by
      refine maxDim_eq (List.mem_map.2 ⟨_, hmem, rfl⟩) fun y hy => ?_
      obtain ⟨t, ht, rfl⟩ := List.mem_map.1 hy
      exact dim_le fun m hm => h2.1 m (hm ▸ ht)
    have hi : i < args.length := (List.getElem?_eq_some_iff.1 h1).1
    have hidx : (args.map Ty.dim).idxOf (n : ℤ) = i := by
      have hlt : (args.map Ty.dim).idxOf (n : ℤ) < args.length := by
        rw [← List.length_map (f := Ty.dim)]
        exact List.idxOf_lt_length_of_mem (List.mem_map.2 ⟨_, hmem, rfl⟩)
      have hget : (args.map Ty.dim)[(args.map Ty.dim).idxOf (n : ℤ)]'(by simpa using hlt) = n := List.getElem_idxOf _
      rcases lt_trichotomy ((args.map Ty.dim).idxOf (n : ℤ)) i with hl | he | hg
      · rw [List.getElem_map] at hget
        exact absurd (by rw [List.getElem?_eq_getElem hlt, dim_eq_iff.1 hget]) (h2.2 _ hl)
      · exact he
      · have := List.not_of_lt_findIdx (xs := args.map Ty.dim) (p := (· == (n : ℤ))) hg
        rw [List.getElem_map, (List.getElem?_eq_some_iff.1 h1).2] at this
        simp [Ty.dim] at this
    simp only [detectTypes, hm, ok_bind, if_neg h3, hidx, hnd]

/-- Without an array in the place of the values. -/
theorem detect_none {args : List Ty} (h0 : args ≠ []) (h : ¬ ∃ i n, ValuesAt args i n) :
    detectTypes args = .error .attribute := by
  have hm : ∃ b, maxDim (args.map Ty.dim) = .ok b := by
    cases args with
    | nil => simp at h0
    | cons a l => exact ⟨_, rfl⟩
  have hnd : ∀ i, i < args.length → (∀ n, args[i]? ≠ some (.arr n)) → ndimAt args i = .error .attribute := by
    intro i hi hn
    rw [ndimAt, List.getElem?_eq_getElem hi]
    rw [List.getElem?_eq_getElem hi] at hn
    cases hx : args[i] with
    | arr m => exact absurd (congrArg some hx) (hn m)
    | _ => rfl
  by_cases h3 : args.length = 3
  · obtain ⟨b, hb⟩ := hm
    have := hnd 1 (by omega) fun n hn => h ⟨1, n, hn, by rw [if_pos h3]⟩
    simp only [detectTypes, hb, ok_bind, if_pos h3, this]; rfl
  · have hno : ∀ m, Ty.arr m ∉ args := by
      intro m hmem
      have : ∃ n, Ty.arr n ∈ args ∧ ∀ m, Ty.arr m ∈ args → m ≤ n := by
        obtain ⟨b, hb⟩ : ∃ b, ∀ m, Ty.arr m ∈ args → m ≤ b := by
          obtain ⟨c, hc⟩ := hm
          refine ⟨((args.map Ty.dim).foldl pyMax 0).toNat, fun m hm => ?_⟩
          have := (le_foldl_pyMax (args.map Ty.dim) 0).2 m (List.mem_map.2 ⟨_, hm, rfl⟩)
          omega
        classical
        let P := fun n => ∀ m, Ty.arr m ∈ args → m ≤ n
        refine ⟨Nat.find (p := P) ⟨b, hb⟩, ?_, Nat.find_spec (p := P) ⟨b, hb⟩⟩
        by_contra hc
        have hs := Nat.find_spec (p := P) ⟨b, hb⟩
        have hpos : 0 < Nat.find (p := P) ⟨b, hb⟩ := by
          rcases Nat.eq_zero_or_pos (Nat.find (p := P) ⟨b, hb⟩) with h0 | h0
          · have := hs m hmem
            rw [h0] at hc this
            obtain rfl : m = 0 := by omega
            exact absurd hmem hc
          · exact h0
        refine Nat.find_min (p := P) ⟨b, hb⟩ (m := Nat.find (p := P) ⟨b, hb⟩ - 1) (by omega) fun m hm => ?_
        have := hs m hm
        have : m ≠ Nat.find (p := P) ⟨b, hb⟩ := fun e => hc (e ▸ hm)
        omega
      obtain ⟨n, hn, hmax⟩ := this
      refine h ⟨args.idxOf (.arr n), n, ?_, ?_⟩
      · have hl : args.idxOf (Ty.arr n) < args.length := List.idxOf_lt_length_of_mem hn
        rw [List.getElem?_eq_getElem hl, List.getElem_idxOf hl]
      · rw [if_neg h3]
        refine ⟨hmax, fun j hj he => ?_⟩
        obtain ⟨hj', he⟩ := List.getElem?_eq_some_iff.1 he
        have := List.not_of_lt_findIdx (xs := args) (p := (· == Ty.arr n)) hj
        simp [he] at this
    have hdim : ∀ t ∈ args, t.dim = -1 := by
      intro t ht
      cases t with
      | arr m => exact absurd ht (hno m)
      | _ => rfl
    have hmax : maxDim (args.map Ty.dim) = .ok (-1) := by
      cases args with
      | nil => exact absurd rfl h0
      | cons a l =>
        refine maxDim_eq (List.mem_map.2 ⟨a, by simp, hdim a (by simp)⟩) fun y hy => ?_
        obtain ⟨t, ht, rfl⟩ := List.mem_map.1 hy
        rw [hdim t ht]
    have hidx : (args.map Ty.dim).idxOf (-1) = 0 := by
      cases args with
      | nil => exact absurd rfl h0
      | cons a l => rw [List.map_cons, hdim a (by simp), List.idxOf_cons_self]
    have hpos : 0 < args.length := List.length_pos_iff.2 h0
    have := hnd 0 hpos fun n hn => hno n (List.mem_of_getElem? hn)
    simp only [detectTypes, hmax, ok_bind, if_neg h3, hidx, this]; rfl

section
variable {K : Type} [Add K] [Sub K] [Mul K] [Div K] [Neg K] [Zero K] [One K] [NatCast K]
  [IntCast K] [LT K] [DecidableLT K] [BEq K] [IntFloor K]

theorem interp_error {args : List (Arg K)} {e : Err} (h : detectTypes (args.map tyOf) = .error e) :
    interp args = .error e := by
  rw [interp, h]; rfl

/-- C96. Calls of `interp` whose arguments have no meaning: nothing at all; no array where the values should be; values
whose number of dimensions is neither the number of axes before them nor one more; no place to evaluate at; several
arrays, not all of one dimension; a single array of a number of dimensions other than one and two; numbers and arrays
mixed. -/
theorem C96_interp (args : List (Arg K)) :
    (args = [] → interp args = .error .value) ∧
    (args ≠ [] → (¬ ∃ i n, ValuesAt (args.map tyOf) i n) → interp args = .error .attribute) ∧
    (∀ i n, ValuesAt (args.map tyOf) i n →
      (n ≠ i → n ≠ i + 1 → interp args = .error .assertion) ∧
      (n = i ∨ n = i + 1 →
        (args.length = i + 1 → interp args = .error .index) ∧
        (∀ es, (args.map tyOf).drop (i + 1) = es → 2 ≤ es.length →
          ((∀ t ∈ es, t.isArr) → (∃ t ∈ es, t ≠ .arr 1) → interp args = .error .assertion) ∧
          ((∃ t ∈ es, ¬ t.isArr) → (∃ t ∈ es, ¬ t.isScalar) →
            interp args = .error (.exception "Undetected evaluation type."))) ∧
        (∀ t, (args.map tyOf).drop (i + 1) = [t] → t ≠ .arr 1 → t ≠ .arr 2 → t ≠ .uniTuple → t ≠ .scalar →
          interp args = .error (.exception "Undetected evaluation type.")))) := by
  refine ⟨?_, ?_, ?_⟩
  · rintro rfl; rfl
  · intro h0 h
    exact interp_error (detect_none (by simpa using h0) h)
  · intro i n h
    have hd := detect_at h
    refine ⟨fun h1 h2 => interp_error ?_, fun hn => ?_⟩
    · rw [hd, valuesType, if_neg h1, if_neg h2]; rfl
    · have hv : ∃ v, valuesType n i = .ok v := by
        rcases hn with hn | hn
        · exact ⟨.scalar, by rw [valuesType, if_pos hn]; rfl⟩
        · exact ⟨.vector, by rw [valuesType, if_neg (by omega), if_pos hn]; rfl⟩
      obtain ⟨v, hv⟩ := hv
      have key : ∀ e, evalType ((args.map tyOf).drop (i + 1)) = .error e → interp args = .error e := by
        intro e he
        refine interp_error ?_
        rw [hd, hv, ok_bind, he]; rfl
      refine ⟨fun hl => key _ ?_, fun es hes h2 => ⟨fun ha hb => key _ ?_, fun ha hb => key _ ?_⟩, fun t ht h1 h2 h3 h4 => key _ ?_⟩
      · rw [List.drop_of_length_le (by simp [hl])]; rfl
      · rw [hes]
        have e1 : es.all Ty.isArr = true := List.all_eq_true.2 ha
        have e2 : es.all (· = .arr 1) = false := by
          obtain ⟨t, ht, hne⟩ := hb
          rw [List.all_eq_false]; exact ⟨t, ht, by simpa using hne⟩
        match es, h2 with
        | a :: b :: l, _ =>
          rw [evalType, e1, e2]
          · rfl
          all_goals simp
      · rw [hes]
        have e1 : es.all Ty.isArr = false := by
          obtain ⟨t, ht, hne⟩ := ha
          rw [List.all_eq_false]; exact ⟨t, ht, hne⟩
        have e2 : es.all Ty.isScalar = false := by
          obtain ⟨t, ht, hne⟩ := hb
          rw [List.all_eq_false]; exact ⟨t, ht, hne⟩
        match es, h2 with
        | a :: b :: l, _ =>
          rw [evalType, e1, e2]
          · rfl
          all_goals simp
      · rw [ht, evalType]
        all_goals simp_all

/-- C96. `mlinterp` is refused by the compiler without axes, with values or a tuple of another number of dimensions, or with
an evaluation argument that is neither a tuple nor a matrix. -/
theorem C96_mlinterp (G : List (GridDim K)) (C : NdArray K) (u : Pts K) :
    (G = [] ∨ C.shape.length ≠ G.length → mlinterp G C u = .error .typing) ∧
    (∀ x, x.length ≠ G.length → mlinterp G C (.tup x) = .error .typing) ∧
    (∀ A, A.shape.length ≠ 2 → mlinterp G C (.mat A) = .error .typing) ∧
    mlinterp G C .other = .error .typing := by
  have first : ∀ u, (G = [] ∨ C.shape.length ≠ G.length) → mlinterp G C u = .error .typing := by
    intro u h; simp only [mlinterp, if_pos h]; rfl
  refine ⟨first u, ?_, ?_, ?_⟩
  · intro x hx
    by_cases h : G = [] ∨ C.shape.length ≠ G.length
    · exact first _ h
    · simp only [mlinterp, if_neg h, if_pos hx]; rfl
  · intro A hA
    by_cases h : G = [] ∨ C.shape.length ≠ G.length
    · exact first _ h
    · simp only [mlinterp, if_neg h]
      split
      · rename_i h; simp [h] at hA
      · rfl
  · by_cases h : G = [] ∨ C.shape.length ≠ G.length
    · exact first _ h
    · simp only [mlinterp, if_neg h]; rfl
end

/-- C96: values of three dimensions after one axis. -/
example : interp ([.coord 0 1 5, .arr ⟨[5, 5, 5], fun _ => 0⟩, .flt (1 / 2), .flt (1 / 2)] : List (Arg ℚ)) = .error .assertion := by
  refine ((C96_interp _).2.2 1 3 ⟨rfl, ?_⟩).1 (by norm_num) (by norm_num)
  rw [if_neg (by simp)]
  refine ⟨by simp [tyOf], fun j hj => ?_⟩
  obtain rfl : j = 0 := by omega
  simp [tyOf]

/-- C96: a number where the values should be. -/
example : interp ([.coord 0 1 5, .flt 1, .flt (1 / 2)] : List (Arg ℚ)) = .error .attribute := by
  refine (C96_interp _).2.1 (by simp) ?_
  rintro ⟨i, n, h, h'⟩
  rw [if_pos (by simp)] at h'
  subst h'
  simp [tyOf] at h

end interp

/-! ### Spline objects without values -/

section objects
open Interp.Objects
variable {K : Type} [Add K] [Sub K] [Mul K] [Div K] [Neg K] [Zero K] [One K] [NatCast K]
  [IntCast K] [LT K] [DecidableLT K] [BEq K] [IntFloor K]

theorem mapM_exists {α β : Type} (l : List α) (f : α → Py β) (h : ∀ a ∈ l, ∃ b, f a = .ok b) : ∃ r, l.mapM f = .ok r := by
  induction l with
  | nil => exact ⟨[], rfl⟩
  | cons a l ih =>
    obtain ⟨b, hb⟩ := h a (by simp)
    obtain ⟨r, hr⟩ := ih fun a ha => h a (by simp [ha])
    exact ⟨b :: r, by rw [List.mapM_cons, hb, ok_bind, hr]; rfl⟩

theorem pyIndexNat_exists {α : Type} (l : List α) (i : ℕ) (h : i < l.length) : ∃ v, Cartesian.pyIndexNat l i = .ok v := by
  rw [Cartesian.pyIndexNat, List.getElem?_eq_getElem h]; exact ⟨_, rfl⟩

theorem gridTuple_some (a b : List K) (orders : List ℕ) (hb : a.length ≤ b.length) (ho : a.length ≤ orders.length) :
    ∃ G, gridTuple a b orders = .ok G := by
  refine mapM_exists _ _ fun i hi => ?_
  rw [List.mem_range] at hi
  obtain ⟨x, hx⟩ := pyIndexNat_exists a i hi
  obtain ⟨y, hy⟩ := pyIndexNat_exists b i (by omega)
  obtain ⟨z, hz⟩ := pyIndexNat_exists orders i (by omega)
  exact ⟨_, by rw [hx, ok_bind, hy, ok_bind, hz]; rfl⟩

/-- C96. Linear splines used before they have values raise `AttributeError`. -/
theorem C96_linear_without_values (a b : List K) (orders : List ℕ) (hb : a.length ≤ b.length) (ho : a.length ≤ orders.length)
    (p : Points K) :
    (∃ s, LinearSpline.new a b orders none = .ok s ∧ s.interpolate p = .error .attribute ∧ s.call p = .error .attribute) ∧
    (∃ s, LinearSplines.new a b orders none = .ok s ∧ s.interpolate p = .error .attribute ∧ s.call p = .error .attribute) := by
  obtain ⟨G, hG⟩ := gridTuple_some a b orders hb ho
  constructor
  · have key : ∀ p, (LinearSpline.mk a b orders none).interpolate p = .error .attribute := by
      intro p
      simp only [LinearSpline.interpolate, hG]; rfl
    refine ⟨_, rfl, key p, ?_⟩
    cases p with
    | point x => simp only [LinearSpline.call, key]; rfl
    | rows xs => exact key (.rows xs)
  · have key : ∀ p, (LinearSplines.mk a b orders none).interpolate p = .error .attribute := by
      intro p
      simp only [LinearSplines.interpolate, hG]; rfl
    refine ⟨_, rfl, key p, ?_⟩
    cases p with
    | point x => simp only [LinearSplines.call, key]; rfl
    | rows xs => exact key (.rows xs)

/-- C96. Cubic splines used before they have values: at finite points of the right length `CubicSpline` fails to compile and
`CubicSplines` raises `AttributeError`. -/
theorem C96_cubic_without_values (fin : K → Bool) (a b : List K) (orders : List ℕ) (hb : b.length = a.length)
    (ho : orders.length = a.length) (xs : List (List K)) (hx : ∀ x ∈ xs, x.length = a.length ∧ x.all fin)
    (garbage : List ℕ → K) :
    (∃ s, CubicSpline.new fin a b orders none = .ok s ∧
      (∀ v, s.interpolate fin (.rows xs) v false garbage = .error .typing) ∧
      (∀ x ∈ xs, ∀ v, s.interpolate fin (.point x) v false garbage = .error .typing) ∧
      s.call fin (.rows xs) garbage = .error .typing ∧
      ∀ x ∈ xs, s.call fin (.point x) garbage = .error .typing) ∧
    (∃ s, CubicSplines.new fin a b orders none = .ok s ∧
      s.interpolate fin (.rows xs) garbage = .error .attribute ∧
      s.interpolateDiff fin (.rows xs) garbage = .error .attribute ∧
      s.call fin (.rows xs) garbage = .error .attribute ∧
      ∀ x ∈ xs, s.call fin (.point x) garbage = .error .attribute) := by
  obtain ⟨G, hG⟩ := gridTuple_some a b orders hb.ge ho.ge
  constructor
  · have key : ∀ ys : List (List K), (∀ x ∈ ys, x.length = a.length ∧ x.all fin) → ∀ v,
        (CubicSpline.mk a b orders none none).interpolate fin (.rows ys) v false garbage = .error .typing := by
      intro ys hy v
      have h1 : Points.allFinite fin (.rows ys) = true := List.all_eq_true.2 fun x hx => (hy x hx).2
      simp only [CubicSpline.interpolate, hG, ok_bind, h1]
      rw [if_neg (by simp), if_neg (by simp)]
      simp only [if_neg (not_not.2 fun x hx => (hy x hx).1)]
      rfl
    refine ⟨⟨a, b, orders, none, none⟩, ?_, key xs hx, ?_, ?_, ?_⟩
    · simp [CubicSpline.new, hb, ho]
    · intro x hxm v
      have h1 : Points.allFinite fin (.point x) = true := (hx x hxm).2
      simp only [CubicSpline.interpolate, hG, ok_bind, h1]
      rw [if_neg (by simp), if_neg (by simp)]; rfl
    · simp only [CubicSpline.call, key xs hx]; rfl
    · intro x hxm
      have := key [x] (by simpa using hx x hxm)
      simp only [CubicSpline.call, this]; rfl
  · have key : ∀ ys : List (List K), (∀ x ∈ ys, x.length = a.length ∧ x.all fin) →
        (CubicSplines.mk a b orders none none).checked fin (.rows ys) = .error .attribute := by
      intro ys hy
      have h1 : Points.allFinite fin (.rows ys) = true := List.all_eq_true.2 fun x hx => (hy x hx).2
      simp only [CubicSplines.checked, h1]
      simp only [if_neg (not_not.2 fun x hx => (hy x hx).1)]
      rfl
    refine ⟨⟨a, b, orders, none, none⟩, ?_, ?_, ?_, ?_, ?_⟩
    · simp [CubicSplines.new, hb, ho]
    · simp only [CubicSplines.interpolate, key xs hx]; rfl
    · simp only [CubicSplines.interpolateDiff, key xs hx]; rfl
    · simp only [CubicSplines.call, CubicSplines.interpolate, key xs hx]; rfl
    · intro x hxm
      have := key [x] (by simpa using hx x hxm)
      simp only [CubicSplines.call, CubicSplines.interpolate, this]; rfl

end objects

example := C96_linear_without_values [(0 : ℚ), 0] [1, 2] [3, 4] (by simp) (by simp) (.point [1 / 2, 1])
example := C96_cubic_without_values (fun _ => true) [(0 : ℚ), 0] [1, 2] [3, 4] rfl rfl [[1 / 2, 1]] (by simp) fun _ => 7

/-! ### Others -/

/-- C96. Complete polynomials of arrays that are neither vectors nor matrices raise `ValueError`. -/
theorem C96_complete {K : Type} [Mul K] [Zero K] [One K] [NatCast K] [Pow K ℕ] (z : NdArray K) (d : ℕ) (hd : d ≤ 5)
    (hz : z.shape.length ≠ 1 ∧ z.shape.length ≠ 2) :
    CompletePoly.completePolynomial z d = .error .value ∧ ∀ i : ℕ, CompletePoly.completePolynomialDer z d i = .error .value := by
  have a1 : ¬ ¬ ((d : ℤ) ≥ 0) := by omega
  have a2 : ¬ ((d : ℤ) > 5) := by omega
  constructor
  · simp only [CompletePoly.completePolynomial, if_neg a1, if_neg a2]
    split
    · rename_i h; simp [h] at hz
    · rename_i h; simp [h] at hz
    · rfl
  · intro i
    have a3 : ¬ ¬ ((i : ℤ) ≥ 0) := by omega
    simp only [CompletePoly.completePolynomialDer, if_neg a1, if_neg a2, if_neg a3]
    split
    · rename_i h; simp [h] at hz
    · rename_i h; simp [h] at hz
    · rfl

section filter
open Interp.Filter
variable {K : Type} [Add K] [Sub K] [Mul K] [Div K] [Neg K] [Zero K] [One K] [NatCast K]
  [IntCast K] [LT K] [DecidableLT K] [BEq K] [IntFloor K]

/-- C96. The cubic filter is refused by the compiler without axes or with more than four, with data of fewer dimensions than
axes, with more than one trailing dimension when it allocates, with an output of another number of dimensions, and
`prefilter` for orders other than 1 and 3. -/
theorem C96_filter (G : List (GridDim K)) (D B : NdArray K) :
    (G.length = 0 ∨ 4 < G.length ∨ D.shape.length < G.length →
      filterCubic G D = .error .typing ∧ filterInto G D B = .error .typing ∧
      prefilter G D none 3 = .error .typing ∧ prefilter G D (some B) 3 = .error .typing) ∧
    (G.length + 1 < D.shape.length → filterCubic G D = .error .typing ∧ prefilter G D none 3 = .error .typing) ∧
    (B.shape.length ≠ D.shape.length →
      filterInto G D B = .error .typing ∧ prefilter G D (some B) 3 = .error .typing) ∧
    (∀ k, k ≠ 1 → k ≠ 3 → ∀ o, prefilter G D o k = .error .typing) := by
  have pn : filterCubic G D = .error .typing → prefilter G D none 3 = .error .typing := by
    intro h; simp only [prefilter, h]; rfl
  have ps : filterInto G D B = .error .typing → prefilter G D (some B) 3 = .error .typing := by
    intro h; simp only [prefilter, h]; rfl
  refine ⟨fun h => ?_, fun h => ?_, fun h => ?_, fun k h1 h3 o => ?_⟩
  · have h1 : filterInto G D B = .error .typing := by rw [filterInto, if_pos (by omega)]; rfl
    have h2 : filterCubic G D = .error .typing := by
      simp only [filterCubic]
      by_cases hd : 4 < G.length ∨ G.length = 0
      · rw [if_pos hd]; rfl
      · rw [if_neg hd, if_neg (by omega), if_neg (by omega)]; rfl
    exact ⟨h2, h1, pn h2, ps h1⟩
  · have h2 : filterCubic G D = .error .typing := by
      simp only [filterCubic]
      by_cases hd : 4 < G.length ∨ G.length = 0
      · rw [if_pos hd]; rfl
      · rw [if_neg hd, if_neg (by omega), if_neg (by omega)]; rfl
    exact ⟨h2, pn h2⟩
  · have h1 : filterInto G D B = .error .typing := by
      rw [filterInto, if_pos (Or.inr (Or.inr (Or.inr h)))]; rfl
    exact ⟨h1, ps h1⟩
  · simp only [prefilter, if_neg h1, if_neg h3]; rfl

/-- C96: an axis for data without dimension. -/
example : filterCubic [GridDim.uniform (0 : ℚ) 1 5] ⟨[], fun _ => 0⟩ = .error .typing :=
  ((C96_filter [GridDim.uniform (0 : ℚ) 1 5] ⟨[], fun _ => 0⟩ ⟨[], fun _ => 0⟩).1 (by simp)).1

end filter

section bsplines
open Interp.BSplines
variable {F : Type} [Field F] [LinearOrder F] [IsStrictOrderedRing F] [FloorRing F]

theorem pyIndex_out {α : Type} (l : List α) (i : ℕ) (h : l.length ≤ i) : pyIndex l (i : ℤ) = .error .index := by
  have : wrapIndex l.length (i : ℤ) = none := by
    unfold wrapIndex
    rw [if_neg (by omega), if_neg (by omega)]
  rw [pyIndex, this]; rfl

/-- C96. A B-spline of degree at least one whose knots end too early raises `IndexError`; one of degree zero only where it would
need the missing knot. -/
theorem C96_bspline (u : List F) (hu : u.Pairwise (· < ·)) (p i : ℕ) (x : F) (hi : u.length ≤ i + p + 1) :
    (1 ≤ p → B p u i x = .error .index) ∧
    (p = 0 → u.length ≤ i → B p u i x = .error .index) ∧
    (p = 0 → ∀ h : i < u.length, B p u i x = if u[i] ≤ x then .error .index else .ok 0) := by
  refine ⟨?_, ?_, ?_⟩
  · intro hp
    obtain ⟨q, rfl⟩ : ∃ q, p = q + 1 := ⟨p - 1, by omega⟩
    rw [B]
    by_cases h1 : u.length ≤ i
    · rw [pyIndex_out u i h1]; rfl
    rw [pyIndex_ok rfl (by omega), ok_bind]
    have e : (i : ℤ) + ((q + 1 : ℕ) : ℤ) = ((i + (q + 1) : ℕ) : ℤ) := by push_cast; rfl
    by_cases h2 : u.length ≤ i + (q + 1)
    · rw [e, pyIndex_out u _ h2]; rfl
    rw [pyIndex_ok e (by omega), ok_bind]
    have hne : ext u (i + (q + 1)) - ext u i ≠ 0 :=
      sub_ne_zero.2 (ext_strictMono hu (by omega)).ne'
    rw [pyDiv, if_neg (by simpa using hne), pure_eq_ok, ok_bind, B_ok hu x q i (by omega), ok_bind, e,
      show ((i + (q + 1) : ℕ) : ℤ) + 1 = ((i + (q + 1) + 1 : ℕ) : ℤ) by push_cast; rfl, pyIndex_out u _ (by omega)]
    rfl
  · rintro rfl h
    rw [B, B0, pyIndex_out u i h]; rfl
  · rintro rfl h
    rw [B, B0, pyIndex_ok rfl h, ok_bind, ext_of_lt h]
    split
    · rw [show (i : ℤ) + 1 = ((i + 1 : ℕ) : ℤ) by push_cast; rfl, pyIndex_out u _ (by omega)]; rfl
    · rfl

example : B 2 [(0 : ℚ), 1, 3] 0 (1 / 2) = .error .index :=
  (C96_bspline [(0 : ℚ), 1, 3] (by norm_num) 2 0 (1 / 2) (by simp)).1 (by norm_num)

end bsplines

end Interp.Props
