import Verif.Model.Cartesian
import Verif.Proofs.Arrays
import Verif.Proofs.ExceptLemmas
import Verif.Proofs.FilterLine
import Verif.Spec.Index
import Verif.Spec.Cartesian
import Mathlib.Tactic.Ring
import Mathlib.Tactic.Linarith
import Mathlib.Data.List.GetD
import Mathlib.Algebra.BigOperators.Ring.List

/-! Loops of consistent writes; what `cartesian` computes. -/

set_option linter.unusedSectionVars false
set_option linter.unusedSimpArgs false

namespace Interp

/-- `A'` is `A` with the entries of `S` replaced by the values of `f`. -/
def Wr {K : Type} (A A' : NdArray K) (S : List ℕ → Prop) (f : List ℕ → K) : Prop :=
  A'.shape = A.shape ∧ ∀ idx, (S idx → A'.get idx = f idx) ∧ (¬ S idx → A'.get idx = A.get idx)

theorem Wr.write {K : Type} (A : NdArray K) (js : List ℕ) (v : K) (h : InShape A.shape js)
    (f : List ℕ → K) (hf : f js = v) :
    ∃ A', A.write (js.map Int.ofNat) v = .ok A' ∧ Wr A A' (· = js) f := by
  refine ⟨_, A.write_ok js v h, rfl, fun idx => ⟨?_, ?_⟩⟩
  · rintro rfl; simp [hf]
  · intro hne; simp [hne]

theorem pyFor_writes {K α : Type} (sh : List ℕ) (f : List ℕ → K) (body : α → NdArray K → Py (NdArray K))
    (S : α → List ℕ → Prop) : ∀ (l : List α) (A : NdArray K), A.shape = sh →
    (∀ a ∈ l, ∀ A, A.shape = sh → ∃ A', body a A = .ok A' ∧ Wr A A' (S a) f) →
    ∃ A', pyFor l body A = .ok A' ∧ Wr A A' (fun idx => ∃ a ∈ l, S a idx) f
  | [], A, _, _ => ⟨A, rfl, rfl, fun idx => ⟨by simp, by simp⟩⟩
  | a :: l, A, hA, h => by
    obtain ⟨A1, h1, h2, h3⟩ := h a (by simp) A hA
    obtain ⟨A2, h4, h5, h6⟩ := pyFor_writes sh f body S l A1 (h2.trans hA)
      (fun b hb => h b (by simp [hb]))
    refine ⟨A2, by rw [Filter.pyFor_cons, h1]; exact h4, h5.trans h2, fun idx => ⟨?_, ?_⟩⟩
    · rintro ⟨b, hb, hS⟩
      by_cases hin : ∃ a ∈ l, S a idx
      · exact (h6 idx).1 hin
      · rw [(h6 idx).2 hin]
        rcases List.mem_cons.mp hb with rfl | hb
        · exact (h3 idx).1 hS
        · exact absurd ⟨b, hb, hS⟩ hin
    · intro hn
      rw [(h6 idx).2 (fun ⟨b, hb, hS⟩ => hn ⟨b, by simp [hb], hS⟩)]
      exact (h3 idx).2 (fun hS => hn ⟨a, by simp, hS⟩)

theorem Wr.mono {K : Type} {A A' : NdArray K} {S S' : List ℕ → Prop} {f : List ℕ → K}
    (h : Wr A A' S f) (hS : ∀ idx, S idx ↔ S' idx) : Wr A A' S' f := by
  refine ⟨h.1, fun idx => ?_⟩
  rw [← hS]; exact h.2 idx

namespace Cartesian
variable {K : Type}

theorem repeat1d_ok (x : List K) (rep L n i : ℕ) (A : NdArray K) (h0 : rep * x.length ≠ 0)
    (hs : A.shape = [rep * x.length * L, n]) (hi : i < n) (f : List ℕ → K)
    (hf : ∀ r v, x[(r / L) % x.length]? = some v → f [r, i] = v) :
    ∃ A', repeat1d x rep A i = .ok A' ∧
      Wr A A' (fun idx => ∃ r < rep * x.length * L, idx = [r, i]) f := by
  have hN : 0 < x.length := Nat.pos_of_ne_zero fun h => h0 (by simp [h])
  have hlen : Line.len (⟨[], [i]⟩ : Line) A / (rep * x.length) = L := by
    simp only [Line.len, hs, List.length_nil, List.getD_cons_zero]
    exact Nat.mul_div_cancel_left L (Nat.pos_of_ne_zero h0)
  simp only [repeat1d, if_neg h0, hlen]
  have key : ∀ n' < x.length, ∀ k < rep, ∀ l' < L,
      k * x.length * L + n' * L + l' < rep * x.length * L := by
    intro n' hn' k hk l' hl'
    have h1 : n' * L + l' < x.length * L := by
      calc n' * L + l' < n' * L + L := by omega
        _ = (n' + 1) * L := by ring
        _ ≤ x.length * L := Nat.mul_le_mul_right _ hn'
    calc k * x.length * L + n' * L + l' < k * x.length * L + x.length * L := by omega
      _ = (k + 1) * (x.length * L) := by ring
      _ ≤ rep * (x.length * L) := Nat.mul_le_mul_right _ hk
      _ = rep * x.length * L := by ring
  obtain ⟨A', h1, h2⟩ := pyFor_writes [rep * x.length * L, n] f
    (fun (n : ℕ) (A : NdArray K) => (do
      let val ← listRead x (n : ℤ)
      pyFor (List.range rep) (fun k => pyFor (List.range L) fun l' A => do
        let ind := k * x.length * L + n * L + l'
        A.write (Line.pos ⟨[], [i]⟩ (ind : ℕ)) val) A : Py (NdArray K)))
    (fun n' idx => ∃ k ∈ List.range rep, ∃ l' ∈ List.range L,
      idx = [k * x.length * L + n' * L + l', i]) (List.range x.length) A hs (by
      intro n' hn' A1 hA1
      rw [List.mem_range] at hn'
      have hr : listRead x (n' : ℤ) = .ok x[n'] := by
        have := listRead_of_lt x (n' : ℤ) (by omega) (by omega)
        simpa using this
      simp only [hr, ok_bind]
      refine pyFor_writes [rep * x.length * L, n] f _ _ (List.range rep) A1 hA1 ?_
      intro k hk A2 hA2
      rw [List.mem_range] at hk
      refine pyFor_writes [rep * x.length * L, n] f _ _ (List.range L) A2 hA2 ?_
      intro l' hl' A3 hA3
      rw [List.mem_range] at hl'
      refine Wr.write A3 [k * x.length * L + n' * L + l', i] x[n'] ?_ f ?_
      · rw [hA3]; exact ⟨key n' hn' k hk l' hl', hi, trivial⟩
      · refine hf _ _ ?_
        have hL : 0 < L := by omega
        have e1 : k * x.length * L + n' * L + l' = l' + L * (n' + x.length * k) := by ring
        have e : (k * x.length * L + n' * L + l') / L % x.length = n' := by
          rw [e1, Nat.add_mul_div_left _ _ hL, Nat.div_eq_of_lt hl', Nat.zero_add,
            Nat.add_mul_mod_self_left, Nat.mod_eq_of_lt hn']
        rw [e]; simp [hn'])
  refine ⟨A', h1, h2.mono fun idx => ?_⟩
  constructor
  · rintro ⟨n', hn', k, hk, l', hl', rfl⟩
    simp only [List.mem_range] at hn' hk hl'
    exact ⟨_, key n' hn' k hk l' hl', rfl⟩
  · rintro ⟨r, hr, rfl⟩
    have hL : 0 < L := Nat.pos_of_ne_zero fun h => by simp [h] at hr
    refine ⟨r / L % x.length, by simpa using Nat.mod_lt _ hN, r / L / x.length, ?_, r % L,
      by simpa using Nat.mod_lt _ hL, ?_⟩
    · rw [List.mem_range, Nat.div_lt_iff_lt_mul hN, Nat.div_lt_iff_lt_mul hL]; exact hr
    · congr 1
      have a1 := Nat.div_add_mod r L
      have a2 := Nat.div_add_mod (r / L) x.length
      calc r = L * (r / L) + r % L := a1.symm
        _ = L * (x.length * (r / L / x.length) + r / L % x.length) + r % L := by rw [a2]
        _ = _ := by ring

/-- Products of the sizes of the axes before and after axis `i`. -/
theorem cumprod_getElem? : ∀ (l : List ℕ) (p i : ℕ), i < l.length →
    (cumprod p l)[i]? = some (p * (l.take (i + 1)).prod)
  | [], _, i, h => by simp at h
  | n :: l, p, 0, _ => by simp [cumprod]
  | n :: l, p, i + 1, h => by
    simp only [cumprod, List.getElem?_cons_succ]
    rw [cumprod_getElem? l (p * n) i (by simpa using h)]
    simp [mul_assoc]

theorem cumprod_length : ∀ (l : List ℕ) (p : ℕ), (cumprod p l).length = l.length
  | [], _ => rfl
  | n :: l, p => by simp [cumprod, cumprod_length l]

theorem take_dropLast {α : Type} (l : List α) (i : ℕ) (h : i < l.length) :
    l.dropLast.take i = l.take i := by
  rw [List.dropLast_eq_take, List.take_take, Nat.min_eq_left (by omega)]

theorem reps_C (sh : List ℕ) (i : ℕ) (h : i < sh.length) :
    (repetitions "C" sh)[i]? = some (sh.take i).prod := by
  rw [repetitions, if_pos rfl, cumprod_getElem? _ _ _ (by simp; omega)]
  simp [take_dropLast sh i h]

theorem reps_F (order : String) (ho : order ≠ "C") (sh : List ℕ) (i : ℕ) (h : i < sh.length) :
    (repetitions order sh)[i]? = some (sh.drop (i + 1)).prod := by
  have hl : (1 :: sh.reverse.dropLast).length = sh.length := by simp; omega
  rw [repetitions, if_neg ho]
  show ((cumprod 1 (1 :: sh.reverse.dropLast)).reverse)[i]? = _
  rw [List.getElem?_reverse (by rw [cumprod_length, hl]; exact h), cumprod_length, hl,
    cumprod_getElem? _ _ _ (by rw [hl]; omega)]
  rw [List.take_succ_cons, take_dropLast _ _ (by simp; omega), List.prod_cons, one_mul, one_mul,
    List.take_reverse, List.prod_reverse]
  congr 3
  omega

/-- Number of the node of axis `i` in row `r`. -/
def dig (order : String) (sh : List ℕ) (r i : ℕ) : ℕ :=
  r / (if order = "C" then (sh.drop (i + 1)).prod else (sh.take i).prod) % sh.getD i 0

theorem prod_split (sh : List ℕ) (i : ℕ) (h : i < sh.length) :
    sh.prod = (sh.take i).prod * sh.getD i 0 * (sh.drop (i + 1)).prod := by
  have : sh = sh.take i ++ sh[i] :: sh.drop (i + 1) := by simp
  calc sh.prod = (sh.take i ++ sh[i] :: sh.drop (i + 1)).prod := by rw [← this]
    _ = _ := by
      rw [List.prod_append, List.prod_cons, List.getD_eq_getElem _ _ h]
      ring

theorem cartesian_ok [Zero K] (nodes : List (List K)) (order : String) (hne : nodes ≠ [])
    (hpos : ∀ x ∈ nodes, x ≠ []) :
    ∃ A, cartesian nodes order = .ok A ∧ A.shape = [(nodes.map List.length).prod, nodes.length] ∧
      ∀ r < (nodes.map List.length).prod, ∀ (i : ℕ) (x : List K) (v : K), nodes[i]? = some x →
        x[dig order (nodes.map List.length) r i]? = some v → A.get [r, i] = v := by
  set sh := nodes.map List.length with hsh
  have hn : nodes.length ≠ 0 := by simpa using hne
  have hlen : sh.length = nodes.length := by simp [hsh]
  simp only [cartesian, if_neg hn]
  have hpos' : ∀ s ∈ sh, s ≠ 0 := by
    intro s hs
    simp only [hsh, List.mem_map] at hs
    obtain ⟨x, hx, rfl⟩ := hs
    simpa using hpos x hx
  obtain ⟨A, h1, h2, h3⟩ := pyFor_writes [sh.prod, nodes.length]
    (fun idx => ((nodes.getD (idx.getD 1 0) [])[dig order sh (idx.getD 0 0) (idx.getD 1 0)]?).getD 0)
    (fun (i : ℕ) (out : NdArray K) => (do
      let x ← listRead nodes (i : ℤ)
      let rep ← listRead (repetitions order sh) (i : ℤ)
      repeat1d x rep out i : Py (NdArray K)))
    (fun i idx => ∃ r < sh.prod, idx = [r, i]) (List.range nodes.length)
    (NdArray.zeros [sh.prod, nodes.length]) rfl (by
      intro i hi A hA
      rw [List.mem_range] at hi
      have hi' : i < sh.length := by omega
      set q := if order = "C" then (sh.take i).prod else (sh.drop (i + 1)).prod with hq
      set L := if order = "C" then (sh.drop (i + 1)).prod else (sh.take i).prod with hL
      have e1 : (repetitions order sh)[i]? = some q := by
        by_cases ho : order = "C"
        · rw [hq, if_pos ho, ho, reps_C sh i hi']
        · rw [hq, if_neg ho, reps_F order ho sh i hi']
      have e1' : listRead (repetitions order sh) (i : ℤ) = .ok q := by
        obtain ⟨hb, hv⟩ := List.getElem?_eq_some_iff.mp e1
        have := listRead_of_lt (repetitions order sh) (i : ℤ) (by omega) (by omega)
        simpa [hv] using this
      have e2 : listRead nodes (i : ℤ) = .ok nodes[i] := by
        have := listRead_of_lt nodes (i : ℤ) (by omega) (by omega)
        simpa using this
      have hsi : sh.getD i 0 = nodes[i].length := by
        rw [List.getD_eq_getElem _ _ hi']; simp [hsh]
      have hprod : sh.prod = q * nodes[i].length * L := by
        rw [prod_split sh i hi', hsi, hq, hL]
        split_ifs <;> ring
      simp only [e1', e2, ok_bind]
      have hne' : sh.prod ≠ 0 := by
        rw [Ne, List.prod_eq_zero_iff]
        exact fun h => hpos' 0 h rfl
      rw [hprod]
      refine repeat1d_ok nodes[i] q L nodes.length i A ?_ (by rw [hA, hprod]) hi _ ?_
      · intro h0; rw [hprod, h0] at hne'; simp at hne'
      · intro r v hv
        simp only [List.getD_cons_zero, List.getD_cons_succ, dig, hsi]
        rw [List.getD_eq_getElem _ _ hi, ← hL, hv, Option.getD_some])
  refine ⟨A, h1, h2, ?_⟩
  intro r hr i x v hx hv
  have hi : i < nodes.length := (List.getElem?_eq_some_iff.mp hx).1
  rw [(h3 [r, i]).1 ⟨i, by simpa using hi, r, hr, rfl⟩]
  simp only [List.getD_cons_zero, List.getD_cons_succ]
  rw [show nodes.getD i [] = x by simp [hx], hv, Option.getD_some]

end Cartesian
end Interp

namespace Interp
open Interp.Spec

theorem range_mul (n p : ℕ) : List.range (n * p) =
    (List.range n).flatMap fun i => (List.range p).map fun j => i * p + j := by
  induction n with
  | zero => simp
  | succ n ih =>
    rw [List.range_succ, List.flatMap_append, ← ih, Nat.succ_mul, List.range_add]
    simp

theorem allIdx_eq_unravel : ∀ sh : List ℕ,
    allIdx sh = (List.range sh.prod).map (unravel sh)
  | [] => by simp [allIdx, unravel]
  | n :: sh => by
    rw [allIdx, List.prod_cons, range_mul, List.map_flatMap]
    congr 1
    funext i
    rw [allIdx_eq_unravel sh, List.map_map, List.map_map]
    apply List.map_congr_left
    intro r hr
    rw [List.mem_range] at hr
    simp only [Function.comp, unravel]
    rw [mul_comm i, Nat.mul_add_div (by omega), Nat.div_eq_of_lt hr, Nat.mul_add_mod,
      Nat.mod_eq_of_lt hr, Nat.add_zero]

theorem unravel_length : ∀ (sh : List ℕ) (r : ℕ), (unravel sh r).length = sh.length
  | [], _ => rfl
  | _ :: sh, r => by simp [unravel, unravel_length sh]

theorem unravel_getElem? : ∀ (sh : List ℕ) (r i : ℕ), r < sh.prod → i < sh.length →
    (unravel sh r)[i]? = some (r / (sh.drop (i + 1)).prod % sh.getD i 0)
  | [], _, _, _, h => by simp at h
  | n :: sh, r, 0, hr, _ => by
    simp only [unravel, List.getElem?_cons_zero, zero_add, List.drop_succ_cons, List.drop_zero,
      List.getD_cons_zero]
    rw [List.prod_cons] at hr
    rw [Nat.mod_eq_of_lt]
    rwa [Nat.div_lt_iff_lt_mul]
    exact Nat.pos_of_ne_zero fun h => by simp [h] at hr
  | n :: sh, r, i + 1, hr, hi => by
    have hp : 0 < sh.prod := by
      rw [List.prod_cons] at hr
      exact Nat.pos_of_ne_zero fun h => by simp [h] at hr
    have hi' : i < sh.length := by simpa using hi
    simp only [unravel, List.getElem?_cons_succ, List.drop_succ_cons, List.getD_cons_succ]
    rw [unravel_getElem? sh (r % sh.prod) i (Nat.mod_lt _ hp) hi']
    congr 1
    have e := Cartesian.prod_split sh i hi'
    set q := (sh.drop (i + 1)).prod
    set s := sh.getD i 0
    set t := (sh.take i).prod
    have e' : sh.prod = q * (s * t) := by rw [e]; ring
    rw [e', Nat.mod_mul_right_div_self, Nat.mod_mul_right_mod]

theorem ravel_append : ∀ (sh idx t tail : List ℕ), idx.length = sh.length →
    ravel (sh ++ t) (idx ++ tail) = ravel sh idx * t.prod + ravel t tail
  | [], [], t, tail, _ => by simp [ravel]
  | n :: sh, i :: idx, t, tail, h => by
    simp only [List.cons_append, ravel]
    rw [ravel_append sh idx t tail (by simpa using h), List.prod_append]
    ring
  | [], _ :: _, _, _, h => by simp at h
  | _ :: _, [], _, _, h => by simp at h

namespace Cartesian
variable {K : Type}

/-- The rows of `cartesian`. -/
theorem cartesian_rows [Zero K] (nodes : List (List K)) (order : String) (hne : nodes ≠ [])
    (hpos : ∀ x ∈ nodes, x ≠ []) :
    ∃ A, cartesian nodes order = .ok A ∧ A.shape = [(nodes.map List.length).prod, nodes.length] ∧
      ∀ r < (nodes.map List.length).prod,
        rowOf A r = pick nodes ((List.range nodes.length).map (dig order (nodes.map List.length) r)) := by
  obtain ⟨A, h1, h2, h3⟩ := cartesian_ok nodes order hne hpos
  refine ⟨A, h1, h2, fun r hr => ?_⟩
  apply List.ext_getElem
  · simp [rowOf, pick, h2]
  · intro i hi1 hi2
    have hi : i < nodes.length := by simpa [rowOf, h2] using hi1
    simp only [rowOf, pick, List.getElem_map, List.getElem_range, List.getElem_zipWith]
    have hx : nodes[i] ≠ [] := hpos _ (List.getElem_mem hi)
    have hd : dig order (nodes.map List.length) r i < nodes[i].length := by
      have : (nodes.map List.length).getD i 0 = nodes[i].length := by
        rw [List.getD_eq_getElem _ _ (by simpa using hi)]; simp
      rw [dig, this]
      exact Nat.mod_lt _ (List.length_pos_iff.mpr hx)
    refine h3 r hr i nodes[i] _ (by simp [hi]) ?_
    rw [List.getD_eq_getElem _ _ hd]
    simp [hd]

theorem dig_C (sh : List ℕ) (r : ℕ) (hr : r < sh.prod) :
    (List.range sh.length).map (dig "C" sh r) = unravel sh r := by
  apply List.ext_getElem?
  intro i
  by_cases hi : i < sh.length
  · rw [unravel_getElem? sh r i hr hi]
    simp [hi, dig]
  · rw [List.getElem?_eq_none (by simpa using hi), List.getElem?_eq_none (by
      rw [unravel_length]; omega)]

theorem dig_F (order : String) (ho : order ≠ "C") (sh : List ℕ) (r : ℕ) (hr : r < sh.prod) :
    (List.range sh.length).map (dig order sh r) = (unravel sh.reverse r).reverse := by
  apply List.ext_getElem?
  intro i
  by_cases hi : i < sh.length
  · rw [List.getElem?_reverse (by rw [unravel_length]; simpa using hi), unravel_length,
      List.length_reverse, unravel_getElem? sh.reverse r _ (by rwa [List.prod_reverse])
      (by rw [List.length_reverse]; omega)]
    have e1 : (sh.reverse.drop (sh.length - 1 - i + 1)).prod = (sh.take i).prod := by
      rw [List.drop_reverse, List.prod_reverse]
      congr 2; omega
    have e2 : sh.reverse.getD (sh.length - 1 - i) 0 = sh.getD i 0 := by
      rw [List.getD_eq_getElem _ _ (by rw [List.length_reverse]; omega),
        List.getD_eq_getElem _ _ hi, List.getElem_reverse]
      congr 1; omega
    rw [e1, e2]
    simp [hi, dig, ho]
  · rw [List.getElem?_eq_none (by simpa using hi), List.getElem?_eq_none (by
      rw [List.length_reverse, unravel_length, List.length_reverse]; omega)]

end Cartesian
end Interp
