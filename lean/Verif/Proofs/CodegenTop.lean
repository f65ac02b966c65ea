import Verif.Proofs.CodegenRun
import Mathlib.Data.List.Dedup

/-! The generated programs compute the closed form. -/

set_option linter.unusedSectionVars false
set_option linter.unusedSimpArgs false

namespace Interp.Codegen
open Interp.Ref

variable {K : Type} [Add K] [Sub K] [Mul K] [Div K] [Neg K] [Zero K] [One K] [NatCast K]
  [IntCast K] [LT K] [DecidableLT K] [BEq K] [IntFloor K]

/-- A supported call on a well-formed grid (`vec`: vector-valued with `m` components). -/
structure GoodCall (k : ℕ) (G : List (GridDim K)) (C : NdArray K) (vec : Bool) (m : ℕ)
    (orders : Option (List (List ℕ))) : Prop where
  ne : G ≠ []
  wf : ∀ g ∈ G, WF g
  shape : ∃ sh, C.shape = sh ++ (if vec then [m] else []) ∧ Fits k G sh
  hk : k = 1 ∨ k = 3
  uni : k = 3 → ∀ g ∈ G, g.gtype = .uniform
  ords : ∀ os, orders = some os → os ≠ [] ∧
    ∀ oo ∈ os, oo.length = G.length ∧ (k = 3 → ∀ l ∈ oo, l ≤ 1)
  names : ∀ os, orders = some os → ∀ p ∈ os, ∀ q ∈ os, valName p = valName q →
    ∀ x c, x.length = G.length → evalAt k G p x c = evalAt k G q x c
  deriv : k = 1 → orders ≠ none → ∀ g ∈ G, ∀ x, (delta g x == 0) = false

/-- Derivative orders needed along axis `i`. -/
def axisOrders (orders : Option (List (List ℕ))) (i : ℕ) : List ℕ :=
  match orders with
  | none => [0]
  | some os => (os.map fun o => o.getD i 0).dedup.insertionSort (· ≤ ·)

theorem mem_axisOrders (os : List (List ℕ)) (i l : ℕ) :
    l ∈ axisOrders (some os) i ↔ ∃ oo ∈ os, oo.getD i 0 = l := by
  rw [axisOrders, List.mem_insertionSort, List.mem_dedup, List.mem_map]

theorem min?_const (l : List ℕ) (d : ℕ) (hne : l ≠ []) (h : ∀ a ∈ l, a = d) : l.min? = some d := by
  rw [List.min?_eq_some_iff]
  refine ⟨?_, fun b hb => (h b hb).ge⟩
  cases l with
  | nil => exact (hne rfl).elim
  | cons a l => have := h a (by simp); simp [this]

theorem basesOrders_ok (d : ℕ) (orders : Option (List (List ℕ)))
    (h : ∀ os, orders = some os → os ≠ [] ∧ ∀ oo ∈ os, oo.length = d) (i : ℕ) (hi : i < d) :
    (basesOrders d orders)[i]? = some (axisOrders orders i) := by
  cases orders with
  | none => simp [basesOrders, axisOrders, hi]
  | some os =>
    obtain ⟨h1, h2⟩ := h os rfl
    have hmin : (os.map List.length).min? = some d := by
      apply min?_const
      · simpa using h1
      · intro a ha
        rw [List.mem_map] at ha
        obtain ⟨o, ho, rfl⟩ := ha
        exact h2 o ho
    simp [basesOrders, axisOrders, hmin, hi]

variable {k : ℕ} {G : List (GridDim K)} {C : NdArray K} {vec : Bool} {m : ℕ}
  {orders : Option (List (List ℕ))}

/-- The orders evaluated at trailing position `j`. -/
theorem GoodCall.axisOrdersOk (h : GoodCall k G C vec m orders) (i : ℕ) (hi : i < G.length) :
    OrdersOk k (axisOrders orders i) := by
  rcases h.hk with hk | hk
  · exact Or.inl hk
  · refine Or.inr ⟨hk, ?_⟩
    cases ho : orders with
    | none => simp [axisOrders]
    | some os =>
      intro l hl
      rw [mem_axisOrders] at hl
      obtain ⟨oo, hoo, rfl⟩ := hl
      obtain ⟨h1, h2⟩ := (h.ords os ho).2 oo hoo
      have hi' : i < oo.length := by omega
      apply h2 hk
      rw [List.getD_eq_getElem?_getD, List.getElem?_eq_getElem hi']
      exact List.getElem_mem hi'

theorem GoodCall.fits_length : ∀ {G : List (GridDim K)} {sh : List ℕ}, Fits k G sh →
    sh.length = G.length
  | [], [], _ => rfl
  | [], _ :: _, h => h.elim
  | _ :: _, [], h => h.elim
  | _ :: G, _ :: sh, h => by simp [GoodCall.fits_length h.2]

/-- One tensor reduction, in a state where the weights are available. -/
theorem GoodCall.value (h : GoodCall k G C vec m orders) (D : ℕ → DimVars K) (xs : List K)
    (hx : xs.length = G.length)
    (hD : ∀ i (hi : i < G.length) (hx : i < xs.length), Loc G[i] xs[i] (D i) ∧
      HasPhi k (axisOrders orders i) G[i] xs[i] (D i))
    (ix : ℕ) (hix : vec = true → ix < m) (diffs : Option (List ℕ)) (oo : List ℕ)
    (hdiff : (orders = none ∧ diffs = none ∧ oo = List.replicate G.length 0) ∨
      (∃ os, orders = some os ∧ oo ∈ os ∧ diffs = some oo)) :
    (getValues G.length vec (k + 1) diffs).eval C D ix
      = .ok (evalAt k G oo xs (fun r => C.get (r ++ if vec then [ix] else []))) := by
  obtain ⟨sh, hsh, hfits⟩ := h.shape
  have hol : oo.length = G.length := by
    rcases hdiff with ⟨_, _, rfl⟩ | ⟨os, ho, hoo, _⟩
    · simp
    · exact ((h.ords os ho).2 oo hoo).1
  have hmem : ∀ i (hi : i < oo.length), oo[i] ∈ axisOrders orders i := by
    intro i hi
    rcases hdiff with ⟨ho, _, rfl⟩ | ⟨os, ho, hoo, _⟩
    · subst ho; simp [axisOrders]
    · subst ho
      rw [mem_axisOrders]
      exact ⟨oo, hoo, by rw [List.getD_eq_getElem?_getD, List.getElem?_eq_getElem hi]; rfl⟩
  refine getValues_eval C D ix k vec G h.ne oo xs diffs ?_ hol hx sh hfits ?_ ?_ ?_ ?_
  · rcases hdiff with ⟨_, rfl, rfl⟩ | ⟨os, _, _, rfl⟩ <;> rfl
  · intro r hr
    rw [hsh]
    apply inShape_append hr
    cases vec with
    | false => simp [InShape]
    | true => exact ⟨hix rfl, trivial⟩
  · intro i hi hx'
    exact cell_bounds _ (WF.two_le (h.wf _ (List.getElem_mem hi))) _
  · intro i hi _ _
    exact weights_length k _ h.hk _ _
  · intro i hi ho' hx'
    obtain ⟨h1, h2⟩ := hD i hi hx'
    exact ⟨h1.1, fun j hj => h2 _ (hmem i ho') j hj⟩

/-! ### Storing results -/

theorem storeCompLoop_ok (c : Ctx K) (D : ℕ → DimVars K) (e : TExpr) (v : ℕ → K) :
    ∀ (l : List ℕ) (A : NdArray K), (∀ ix ∈ l, e.eval c.C D ix = .ok (v ix)) →
    (∀ ix ∈ l, InShape A.shape (c.pre ++ [ix])) →
    ∃ A', storeCompLoop c D e l A = .ok A' ∧ A'.shape = A.shape ∧
      (∀ ix ∈ l, A'.get (c.pre ++ [ix]) = v ix) ∧
      (∀ idx, (∀ ix ∈ l, idx ≠ c.pre ++ [ix]) → A'.get idx = A.get idx)
  | [], A, _, _ => ⟨A, rfl, rfl, by simp, by simp⟩
  | ix :: l, A, he, hs => by
    have hw : A.write (c.pre.map Int.ofNat ++ [(ix : ℤ)]) (v ix)
        = .ok { A with get := fun k => if k = c.pre ++ [ix] then v ix else A.get k } := by
      rw [← NdArray.write_ok A (c.pre ++ [ix]) (v ix) (hs ix (by simp)), List.map_append]
      rfl
    obtain ⟨A', h1, h2, h3, h4⟩ := storeCompLoop_ok c D e v l
      { A with get := fun k => if k = c.pre ++ [ix] then v ix else A.get k }
      (fun i hi => he i (by simp [hi])) (fun i hi => hs i (by simp [hi]))
    refine ⟨A', ?_, h2, ?_, ?_⟩
    · rw [storeCompLoop, he ix (by simp)]
      simp only [ok_bind, hw, h1]
    · intro i hi
      rcases List.mem_cons.1 hi with rfl | hi
      · by_cases hmem : i ∈ l
        · exact h3 i hmem
        · rw [h4 _ (fun j hj heq => ?_)]
          · simp
          · have : i = j := by simpa using heq
            exact hmem (this ▸ hj)
      · exact h3 i hi
    · intro idx hidx
      rw [h4 idx (fun j hj => hidx j (by simp [hj]))]
      simp [hidx ix (by simp)]

theorem storeValsLoop_ok (vals : List (ValName × K)) (pre : List ℕ) (v : ℕ → K) :
    ∀ (names : List ValName) (j : ℕ) (A : NdArray K),
    (∀ t (ht : t < names.length), lookupVal names[t] vals = .ok (v (j + t))) →
    (∀ t < names.length, InShape A.shape (pre ++ [j + t])) →
    ∃ A', storeValsLoop vals (pre.map Int.ofNat) j names A = .ok A' ∧ A'.shape = A.shape ∧
      (∀ t < names.length, A'.get (pre ++ [j + t]) = v (j + t)) ∧
      (∀ idx, (∀ t < names.length, idx ≠ pre ++ [j + t]) → A'.get idx = A.get idx)
  | [], j, A, _, _ => ⟨A, rfl, rfl, by simp, by simp⟩
  | name :: names, j, A, hl, hs => by
    have hw : A.write (pre.map Int.ofNat ++ [(j : ℤ)]) (v j)
        = .ok { A with get := fun k => if k = pre ++ [j] then v j else A.get k } := by
      rw [← NdArray.write_ok A (pre ++ [j]) (v j) (hs 0 (by simp)), List.map_append]
      rfl
    obtain ⟨A', h1, h2, h3, h4⟩ := storeValsLoop_ok vals pre v names (j + 1)
      { A with get := fun k => if k = pre ++ [j] then v j else A.get k }
      (fun t ht => by
        have := hl (t + 1) (by simp; omega)
        simpa [Nat.add_assoc, Nat.add_comm 1 t] using this)
      (fun t ht => by
        have := hs (t + 1) (by simp; omega)
        simpa [Nat.add_assoc, Nat.add_comm 1 t] using this)
    have hl0 := hl 0 (by simp)
    simp only [List.getElem_cons_zero, Nat.add_zero] at hl0
    refine ⟨A', ?_, h2, ?_, ?_⟩
    · rw [storeValsLoop, hl0]
      simp only [ok_bind, hw, h1]
    · intro t ht
      cases t with
      | zero =>
        rw [h4 _ (fun s _ heq => ?_)]
        · simp
        · have : j + 0 = j + 1 + s := by simpa using heq
          omega
      | succ t =>
        have := h3 t (by simpa using ht)
        rwa [show j + 1 + t = j + (t + 1) by omega] at this
    · intro idx hidx
      rw [h4 idx (fun t ht => by
        have := hidx (t + 1) (by simpa using ht)
        rwa [show j + (t + 1) = j + 1 + t by omega] at this)]
      have := hidx 0 (by simp)
      simp only [Nat.add_zero] at this
      simp [this]

theorem assignLoop_ok (C : NdArray K) (D : ℕ → DimVars K) (ix : ℕ) (E : List ℕ → TExpr)
    (V : List ℕ → K) : ∀ (os : List (List ℕ)) (vals : List (ValName × K)),
    (∀ oo ∈ os, (E oo).eval C D ix = .ok (V oo)) →
    assignLoop C D ix (os.map fun oo => (valName oo, E oo)) vals
      = .ok ((os.map fun oo => (valName oo, V oo)).reverse ++ vals)
  | [], vals, _ => by simp [assignLoop]
  | oo :: os, vals, h => by
    rw [List.map_cons, assignLoop, h oo (by simp)]
    simp only [ok_bind]
    rw [assignLoop_ok C D ix E V os _ (fun o ho => h o (by simp [ho]))]
    simp

theorem lookup_assigned (os : List (List ℕ)) (V : List ℕ → K) (vals : List (ValName × K))
    (hn : ∀ p ∈ os, ∀ q ∈ os, valName p = valName q → V p = V q) (oo : List ℕ) (hoo : oo ∈ os) :
    lookupVal (valName oo) ((os.map fun oo => (valName oo, V oo)).reverse ++ vals)
      = .ok (V oo) := by
  unfold lookupVal
  rw [List.find?_append]
  have hsome : (((os.map fun oo => (valName oo, V oo)).reverse).find?
      (fun p => decide (p.1 = valName oo))).isSome := by
    rw [List.find?_isSome]
    exact ⟨(valName oo, V oo), by simpa using ⟨oo, hoo, rfl, rfl⟩, by simp⟩
  obtain ⟨p, hp⟩ := Option.isSome_iff_exists.1 hsome
  rw [hp]
  have h1 := List.find?_some hp
  have h2 := List.mem_of_find?_eq_some hp
  simp only [decide_eq_true_eq] at h1
  rw [List.mem_reverse, List.mem_map] at h2
  obtain ⟨q, hq, rfl⟩ := h2
  rw [hn q hq oo hoo h1]
  rfl

/-- The block of the output indexed by `pre` has been filled with `E`; the rest is unchanged. -/
def RowDone (pre rest : List ℕ) (E : List ℕ → K) (A A' : NdArray K) : Prop :=
  A'.shape = A.shape ∧ (∀ tail, InShape rest tail → A'.get (pre ++ tail) = E tail) ∧
    (∀ idx, idx.take pre.length ≠ pre → A'.get idx = A.get idx)

/-- Trailing dimensions of the output for one point. -/
def outRest (vec : Bool) (m : ℕ) (orders : Option (List (List ℕ))) : List ℕ :=
  (if vec then [m] else []) ++ (orders.map List.length).toList

/-- Value at one point, given the transformed coordinates. -/
def plainEntry (k : ℕ) (G : List (GridDim K)) (C : NdArray K) (vec : Bool)
    (orders : Option (List (List ℕ))) (xs : List K) (tail : List ℕ) : K :=
  let comp : List ℕ := if vec then tail.take 1 else []
  let oo : List ℕ :=
    match orders with
    | none => List.replicate G.length 0
    | some os => os.getD ((tail.drop comp.length).headD 0) []
  evalAt k G oo xs (fun r => C.get (r ++ comp))

theorem storeCompOrdersLoop_ok (c : Ctx K) (D : ℕ → DimVars K) (os : List (List ℕ))
    (E : List ℕ → TExpr) (V : ℕ → List ℕ → K)
    (hn : ∀ ix, ∀ p ∈ os, ∀ q ∈ os, valName p = valName q → V ix p = V ix q) :
    ∀ (l : List ℕ) (vals : List (ValName × K)) (A : NdArray K),
    (∀ ix ∈ l, ∀ oo ∈ os, (E oo).eval c.C D ix = .ok (V ix oo)) →
    (∀ ix ∈ l, ∀ t < os.length, InShape A.shape (c.pre ++ [ix, t])) →
    ∃ vals' A', storeCompOrdersLoop c D (os.map fun oo => (valName oo, E oo)) (os.map valName)
        l vals A = .ok (vals', A') ∧ A'.shape = A.shape ∧
      (∀ ix ∈ l, ∀ t < os.length, A'.get (c.pre ++ [ix, t]) = V ix (os.getD t [])) ∧
      (∀ idx, (∀ ix ∈ l, ∀ t, idx ≠ c.pre ++ [ix, t]) → A'.get idx = A.get idx)
  | [], vals, A, _, _ => ⟨vals, A, rfl, rfl, by simp, by simp⟩
  | ix :: l, vals, A, he, hs => by
    have h1 := assignLoop_ok c.C D ix E (V ix) os vals (fun oo hoo => he ix (by simp) oo hoo)
    obtain ⟨A1, h2, h3, h4, h5⟩ := storeValsLoop_ok
      ((os.map fun oo => (valName oo, V ix oo)).reverse ++ vals) (c.pre ++ [ix])
      (fun t => V ix (os.getD t [])) (os.map valName) 0 A
      (fun t ht => by
        have ht' : t < os.length := by simpa using ht
        rw [List.getElem_map, Nat.zero_add,
          lookup_assigned os (V ix) vals (hn ix) os[t] (List.getElem_mem ht'),
          List.getD_eq_getElem?_getD, List.getElem?_eq_getElem ht']
        rfl)
      (fun t ht => by
        have := hs ix (by simp) t (by simpa using ht)
        simpa using this)
    obtain ⟨vals', A', g1, g2, g3, g4⟩ := storeCompOrdersLoop_ok c D os E V hn l
      ((os.map fun oo => (valName oo, V ix oo)).reverse ++ vals) A1
      (fun i hi => he i (by simp [hi]))
      (fun i hi => by rw [h3]; exact hs i (by simp [hi]))
    refine ⟨vals', A', ?_, g2.trans h3, ?_, ?_⟩
    · rw [storeCompOrdersLoop, h1]
      simp only [ok_bind]
      rw [show c.pre.map Int.ofNat ++ [(ix : ℤ)] = (c.pre ++ [ix]).map Int.ofNat by
        rw [List.map_append]; rfl, h2]
      simp only [ok_bind]
      exact g1
    · intro i hi t ht
      rcases List.mem_cons.1 hi with rfl | hi
      · by_cases hmem : i ∈ l
        · exact g3 i hmem t ht
        · rw [g4 _ (fun j hj s heq => ?_)]
          · have := h4 t (by simpa using ht)
            simpa using this
          · have : i = j ∧ t = s := by simpa using heq
            exact hmem (this.1 ▸ hj)
      · exact g3 i hi t ht
    · intro idx hidx
      rw [g4 idx (fun j hj => hidx j (by simp [hj])), h5 idx (fun t _ => by
        have := hidx ix (by simp) t
        simpa using this)]

theorem run_assigns (c : Ctx K) (E : List ℕ → TExpr) (V : List ℕ → K) :
    ∀ (os : List (List ℕ)) (s : State K), (∀ oo ∈ os, (E oo).eval c.C s.dims 0 = .ok (V oo)) →
    run c (os.map fun oo => Stmt.assignVal (valName oo) (E oo)) s
      = .ok ({ s with vals := (os.map fun oo => (valName oo, V oo)).reverse ++ s.vals }, .next)
  | [], s, _ => by simp [run]
  | oo :: os, s, h => by
    have he : exec c (Stmt.assignVal (valName oo) (E oo)) s
        = .ok ({ s with vals := (valName oo, V oo) :: s.vals }, .next) := by
      simp [exec, stepDim, h oo (by simp)]
    rw [List.map_cons, run, he]
    simp only [ok_bind]
    rw [run_assigns c E V os { s with vals := (valName oo, V oo) :: s.vals }
      (fun o ho => h o (by simp [ho]))]
    simp

theorem run_storeVals (c : Ctx K) (v : ℕ → K) :
    ∀ (names : List ValName) (j : ℕ) (s : State K) (A : NdArray K), s.out = some A →
    (∀ t (ht : t < names.length), lookupVal names[t] s.vals = .ok (v (j + t))) →
    (∀ t < names.length, InShape A.shape (c.pre ++ [j + t])) →
    ∃ A', run c (names.mapIdx fun t name => Stmt.storeVal (j + t) name) s
        = .ok ({ s with out := some A' }, .next) ∧ A'.shape = A.shape ∧
      (∀ t < names.length, A'.get (c.pre ++ [j + t]) = v (j + t)) ∧
      (∀ idx, (∀ t < names.length, idx ≠ c.pre ++ [j + t]) → A'.get idx = A.get idx)
  | [], j, s, A, ho, _, _ => ⟨A, by simp [run, ← ho], rfl, by simp, by simp⟩
  | name :: names, j, s, A, ho, hl, hs => by
    have hw : A.write (c.pre.map Int.ofNat ++ [(j : ℤ)]) (v j)
        = .ok { A with get := fun k => if k = c.pre ++ [j] then v j else A.get k } := by
      rw [← NdArray.write_ok A (c.pre ++ [j]) (v j) (hs 0 (by simp)), List.map_append]
      rfl
    have hl0 := hl 0 (by simp)
    simp only [List.getElem_cons_zero, Nat.add_zero] at hl0
    have he : exec c (Stmt.storeVal j name) s = .ok ({ s with
        out := some { A with get := fun k => if k = c.pre ++ [j] then v j else A.get k } },
        .next) := by
      simp only [exec, stepDim, hl0, State.getOut, ho, ok_bind, pure_eq_ok, hw]
    obtain ⟨A', h1, h2, h3, h4⟩ := run_storeVals c v names (j + 1)
      { s with out := some { A with get := fun k => if k = c.pre ++ [j] then v j else A.get k } }
      _ rfl
      (fun t ht => by
        have := hl (t + 1) (by simp; omega)
        simpa [Nat.add_assoc, Nat.add_comm 1 t] using this)
      (fun t ht => by
        have := hs (t + 1) (by simp; omega)
        simpa [Nat.add_assoc, Nat.add_comm 1 t] using this)
    refine ⟨A', ?_, h2, ?_, ?_⟩
    · rw [List.mapIdx_cons, run, Nat.add_zero, he]
      simp only [ok_bind]
      rw [← h1]
      congr 2
      funext t nm
      rw [show j + (t + 1) = j + 1 + t by omega]
    · intro t ht
      cases t with
      | zero =>
        rw [h4 _ (fun s _ heq => ?_)]
        · simp
        · have : j + 0 = j + 1 + s := by simpa using heq
          omega
      | succ t =>
        have := h3 t (by simpa using ht)
        rwa [show j + 1 + t = j + (t + 1) by omega] at this
    · intro idx hidx
      rw [h4 idx (fun t ht => by
        have := hidx (t + 1) (by simpa using ht)
        rwa [show j + (t + 1) = j + 1 + t by omega] at this)]
      have := hidx 0 (by simp)
      simp only [Nat.add_zero] at this
      simp [this]

end Interp.Codegen
