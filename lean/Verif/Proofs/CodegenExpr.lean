import Verif.Spec.SplineRef
import Verif.Proofs.ExceptLemmas

/-! The expression text produced by `get_values` evaluates to the tensor sum. -/

set_option linter.unusedSectionVars false

namespace Interp.Codegen
open Interp.Ref

variable {K : Type} [Add K] [Sub K] [Mul K] [Div K] [Neg K] [Zero K] [One K] [NatCast K]
  [IntCast K] [LT K] [DecidableLT K] [BEq K] [IntFloor K]

theorem mapIdx_range {β : Type} (n : ℕ) (g : ℕ → ℕ → β) :
    (List.range n).mapIdx g = (List.range n).map fun i => g i i := by
  apply List.ext_getElem <;> simp

theorem mapIdx_map_range {α β : Type} (n : ℕ) (f : ℕ → α) (g : ℕ → α → β) :
    ((List.range n).map f).mapIdx g = (List.range n).map fun i => g i (f i) := by
  apply List.ext_getElem <;> simp

theorem foldl_add_eval {α : Type} (C : NdArray K) (D : ℕ → DimVars K) (ix : ℕ) (F : α → TExpr)
    (V : α → K) (l : List α) (e : TExpr) (v : K) (he : e.eval C D ix = .ok v)
    (h : ∀ a ∈ l, (F a).eval C D ix = .ok (V a)) :
    ((l.map F).foldl TExpr.add e).eval C D ix = .ok ((l.map V).foldl (· + ·) v) := by
  induction l generalizing e v with
  | nil => simpa using he
  | cons a l ih =>
    simp only [List.map_cons, List.foldl_cons]
    apply ih
    · simp [TExpr.eval, he, h a (by simp)]
    · exact fun b hb => h b (by simp [hb])

theorem joinPlus_eval {α : Type} (C : NdArray K) (D : ℕ → DimVars K) (ix : ℕ) (F : α → TExpr)
    (V : α → K) (l : List α) (hl : l ≠ [])
    (h : ∀ a ∈ l, (F a).eval C D ix = .ok (V a)) :
    (joinPlus (l.map F)).eval C D ix = .ok (sumL (l.map V)) := by
  cases l with
  | nil => exact (hl rfl).elim
  | cons a l =>
    simp only [List.map_cons, joinPlus, sumL]
    exact foldl_add_eval C D ix F V l _ _ (h a (by simp)) (fun b hb => h b (by simp [hb]))

/-- Tensor sum over dimensions `p, ..., p + m - 1`. -/
def tens (k1 : ℕ) (w : ℕ → ℕ → K) : ℕ → ℕ → (List ℕ → K) → K
  | _, 0, c => c []
  | p, m + 1, c =>
    sumL ((List.range k1).map fun j => w p j * tens k1 w (p + 1) m (fun r => c (j :: r)))

theorem genTrex_eval (C : NdArray K) (D : ℕ → DimVars K) (ix k1 : ℕ) (hk : 0 < k1)
    (w : ℕ → ℕ → K) (c : List ℕ → TExpr) (cv : List ℕ → K) (ls : List ℕ) :
    ∀ (p : ℕ) (inds : List ℕ)
    (_ : ∀ i (hi : i < ls.length), ∀ j < k1, (D (p + i)).phi ls[i] j = some (w (p + i) j))
    (_ : ∀ r : List ℕ, r.length = ls.length → (∀ j ∈ r, j < k1) →
      (c (inds ++ r)).eval C D ix = .ok (cv (inds ++ r))),
    (genTrex (ls.mapIdx fun i diff => (List.range k1).map fun ik => TExpr.phi diff (p + i) ik)
      c inds).eval C D ix = .ok (tens k1 w p ls.length (fun r => cv (inds ++ r))) := by
  induction ls with
  | nil =>
    intro p inds _ hc
    simpa [genTrex, tens] using hc [] rfl (by simp)
  | cons l ls ih =>
    intro p inds hphi hc
    rw [List.mapIdx_cons, genTrex, mapIdx_map_range]
    simp only [List.length_cons, tens]
    apply joinPlus_eval
    · intro h
      have := congrArg List.length h
      simp at this; omega
    · intro j hj
      have hj' : j < k1 := by simpa using hj
      have h1 := hphi 0 (by simp) j hj'
      have h2 := ih (p + 1) (inds ++ [j])
        (fun i hi j' hj' => by
          have := hphi (i + 1) (by simp; omega) j' hj'
          simpa [Nat.add_assoc, Nat.add_comm 1 i] using this)
        (fun r hr hrk => by
          have := hc (j :: r) (by simp [hr]) (by
            intro a ha
            rcases List.mem_cons.1 ha with rfl | ha
            · exact hj'
            · exact hrk a ha)
          simpa using this)
      have e : (ls.mapIdx fun i diff =>
            (List.range k1).map fun ik => TExpr.phi diff (p + (i + 1)) ik)
          = (ls.mapIdx fun i diff =>
            (List.range k1).map fun ik => TExpr.phi diff (p + 1 + i) ik) := by
        congr 1; funext i diff; rw [show p + (i + 1) = p + 1 + i by omega]
      simp only [Nat.add_zero, List.getElem_cons_zero] at h1
      rw [e, TExpr.eval, h2]
      simp [TExpr.eval, h1, var, List.append_assoc]

theorem coef_eval (C : NdArray K) (D : ℕ → DimVars K) (ix : ℕ) (z : ℕ → ℕ) (vec : Bool)
    (offs : List ℕ) (hne : offs ≠ [])
    (hz : ∀ i < offs.length, (D i).idx = some (z i : ℤ))
    (hin : InShape C.shape ((offs.mapIdx fun i o => z i + o) ++ if vec then [ix] else [])) :
    (TExpr.coef offs vec).eval C D ix
      = .ok (C.get ((offs.mapIdx fun i o => z i + o) ++ if vec then [ix] else [])) := by
  have h1 : (offs.mapIdx fun i o => (i, o)).mapM (fun p : ℕ × ℕ => do
      let z ← var "i" (D p.1).idx
      pure (z + (p.2 : ℤ))) = .ok ((offs.mapIdx fun i o => (i, o)).map
        fun p => ((z p.1 + p.2 : ℕ) : ℤ)) := by
    apply mapM_ok
    intro p hp
    rw [List.mem_mapIdx] at hp
    obtain ⟨i, hi, rfl⟩ := hp
    simp [hz i hi, var]
  rw [TExpr.eval, if_neg hne, h1]
  simp only [ok_bind]
  rw [← NdArray.read_ok _ _ hin]
  congr 1
  cases vec
  · simp only [Bool.false_eq_true, if_false, List.append_nil]
    apply List.ext_getElem <;> simp
  · simp only [if_true, List.map_append]
    congr 1
    apply List.ext_getElem <;> simp

/-- `tens` in terms of the axis-by-axis closed form. -/
theorem tens_eq_evalAt (k : ℕ) (w : ℕ → ℕ → K) (z : ℕ → ℕ) :
    ∀ (G : List (GridDim K)) (oo : List ℕ) (x : List K) (p : ℕ) (c : List ℕ → K)
    (_ : oo.length = G.length) (_ : x.length = G.length)
    (_ : ∀ i (hi : i < G.length) (ho : i < oo.length) (hx : i < x.length),
      weights k oo[i] G[i] x[i] = (List.range (k + 1)).map (w (p + i)) ∧
        (cell G[i] x[i]).toNat = z (p + i)),
    tens (k + 1) w p G.length (fun r => c (r.mapIdx fun i o => z (p + i) + o))
      = evalAt k G oo x c
  | [], [], [], p, c, _, _, _ => by simp [tens, evalAt]
  | g :: G, l :: oo, x :: xs, p, c, ho, hx, h => by
    have h0 := h 0 (by simp) (by simp) (by simp)
    simp only [List.getElem_cons_zero, Nat.add_zero] at h0
    have ih : ∀ c', tens (k + 1) w (p + 1) G.length
        (fun r => c' (r.mapIdx fun i o => z (p + 1 + i) + o)) = evalAt k G oo xs c' := fun c' =>
      tens_eq_evalAt k w z G oo xs (p + 1) c' (by simpa using ho) (by simpa using hx)
        (fun i hi ho hx => by
          have := h (i + 1) (by simp; omega) (by simp; omega) (by simp; omega)
          simpa [Nat.add_assoc, Nat.add_comm 1 i] using this)
    simp only [List.length_cons, tens, evalAt]
    rw [h0.1, mapIdx_map_range]
    congr 1
    apply List.map_congr_left
    intro j _
    congr 1
    rw [← ih]
    congr 1
    funext r
    rw [List.mapIdx_cons, Nat.add_zero, h0.2]
    congr 2
    congr 1
    funext i o
    rw [show p + 1 + i = p + (i + 1) by omega]
  | [], _ :: _, _, _, _, h, _, _ => by simp at h
  | [], [], _ :: _, _, _, _, h, _ => by simp at h
  | _ :: _, [], _, _, _, h, _, _ => by simp at h
  | _ :: _, _ :: _, [], _, _, _, h, _ => by simp at h

/-- Sizes along each axis match: `C` has at least `size + k - 1` entries along axis `i`. -/
def Fits (k : ℕ) : List (GridDim K) → List ℕ → Prop
  | [], [] => True
  | g :: G, m :: sh => size g + k ≤ m + 1 ∧ Fits k G sh
  | _, _ => False

theorem fits_inShape (k : ℕ) : ∀ (G : List (GridDim K)) (sh : List ℕ) (z : ℕ → ℕ) (offs : List ℕ),
    Fits k G sh → offs.length = G.length → (∀ j ∈ offs, j < k + 1) →
    (∀ i (hi : i < G.length), z i + 2 ≤ size G[i]) →
    InShape sh (offs.mapIdx fun i o => z i + o)
  | [], [], _, [], _, _, _, _ => by simp [InShape]
  | [], [], _, _ :: _, _, h, _, _ => by simp at h
  | [], _ :: _, _, _, h, _, _, _ => h.elim
  | _ :: _, [], _, _, h, _, _, _ => h.elim
  | _ :: _, _ :: _, _, [], _, h, _, _ => by simp at h
  | g :: G, m :: sh, z, o :: offs, hf, hl, hk, hz => by
    rw [List.mapIdx_cons]
    refine ⟨?_, ?_⟩
    · have h1 := hf.1
      have h2 := hz 0 (by simp)
      have h3 := hk o (by simp)
      simp only [List.getElem_cons_zero] at h2
      omega
    · exact fits_inShape k G sh (fun i => z (i + 1)) offs hf.2 (by simpa using hl)
        (fun j hj => hk j (by simp [hj]))
        (fun i hi => hz (i + 1) (by simp; omega))

/-- `get_values` evaluates to the closed form. -/
theorem getValues_eval (C : NdArray K) (D : ℕ → DimVars K) (ix k : ℕ) (vec : Bool)
    (G : List (GridDim K)) (hG : G ≠ []) (oo : List ℕ) (x : List K) (diffs : Option (List ℕ))
    (hoo : diffs.getD (List.replicate G.length 0) = oo)
    (ho : oo.length = G.length) (hx : x.length = G.length)
    (sh : List ℕ) (hfits : Fits k G sh)
    (hshape : ∀ r, InShape sh r → InShape C.shape (r ++ if vec then [ix] else []))
    (hcell : ∀ i (hi : i < G.length) (hx : i < x.length),
      0 ≤ cell G[i] x[i] ∧ (cell G[i] x[i]).toNat + 2 ≤ size G[i])
    (hwl : ∀ i (hi : i < G.length) (ho : i < oo.length) (hx : i < x.length),
      (weights k oo[i] G[i] x[i]).length = k + 1)
    (hD : ∀ i (hi : i < G.length) (ho : i < oo.length) (hx : i < x.length),
      (D i).idx = some (cell G[i] x[i]) ∧
      ∀ j < k + 1, (D i).phi oo[i] j = some ((weights k oo[i] G[i] x[i]).getD j 0)) :
    (getValues G.length vec (k + 1) diffs).eval C D ix
      = .ok (evalAt k G oo x (fun r => C.get (r ++ if vec then [ix] else []))) := by
  set z : ℕ → ℕ := fun i => if h : i < G.length ∧ i < x.length then
    (cell (G[i]'h.1) (x[i]'h.2)).toNat else 0 with hzdef
  set w : ℕ → ℕ → K := fun i j => if h : i < G.length ∧ i < oo.length ∧ i < x.length then
    (weights k (oo[i]'h.2.1) (G[i]'h.1) (x[i]'h.2.2)).getD j 0 else 0 with hwdef
  have hzi : ∀ i (hi : i < G.length) (hx' : i < x.length), z i = (cell G[i] x[i]).toNat := by
    intro i hi hx'; simp [hzdef, hi, hx']
  have hwi : ∀ i (hi : i < G.length) (ho' : i < oo.length) (hx' : i < x.length) j,
      w i j = (weights k oo[i] G[i] x[i]).getD j 0 := by
    intro i hi ho' hx' j; simp [hwdef, hi, hx', ho']
  have key := tens_eq_evalAt k w z G oo x 0
    (fun r => C.get (r ++ if vec then [ix] else [])) ho hx (by
      intro i hi ho' hx'
      refine ⟨?_, by rw [Nat.zero_add, hzi i hi hx']⟩
      apply List.ext_getElem
      · simp [hwl i hi ho' hx']
      · intro j h1 h2
        have : j < (weights k oo[i] G[i] x[i]).length := h1
        simp [hwi i hi ho' hx' j, List.getElem?_eq_getElem this])
  rw [← key]
  have := genTrex_eval C D ix (k + 1) (by omega) w (fun arg => .coef arg vec)
    (fun r => C.get ((r.mapIdx fun i o => z (0 + i) + o) ++ if vec then [ix] else [])) oo 0 []
    (by
      intro i hi j hj
      have hi' : i < G.length := by omega
      have hx' : i < x.length := by omega
      rw [Nat.zero_add, (hD i hi' hi hx').2 j hj, hwi i hi' hi hx' j])
    (by
      intro r hr hrk
      rw [List.nil_append]
      simp only [Nat.zero_add]
      apply coef_eval C D ix z vec r
      · intro h; subst h
        simp at hr
        rw [← hr] at ho
        exact hG (List.length_eq_zero_iff.1 ho.symm)
      · intro i hi
        have hi' : i < G.length := by omega
        have hx' : i < x.length := by omega
        rw [(hD i hi' (by omega) hx').1, hzi i hi' hx', Int.toNat_of_nonneg (hcell i hi' hx').1]
      · apply hshape
        exact fits_inShape k G sh z r hfits (by omega) hrk (fun i hi => by
          rw [hzi i hi (by omega)]; exact (hcell i hi (by omega)).2))
  rw [getValues]
  simp only [hoo, Nat.zero_add] at this ⊢
  simpa [ho] using this

end Interp.Codegen
