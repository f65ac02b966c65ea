import Verif.Proofs.FungenRead

/-!
# What the one-line functions of `fungen.py` compute
-/

namespace Interp.PyParse
open Interp.Spec.PyLang
open Interp.Mlinterp
open Interp.Codegen hiding exec

set_option linter.unusedSectionVars false

variable {K : Type} [Add K] [Sub K] [Mul K] [Div K] [Neg K] [Zero K] [One K] [NatCast K]
  [IntCast K] [LT K] [DecidableLT K] [BEq K] [IntFloor K] {ctx env : Env K}

theorem eval_name {s : Str} {w : Val K} (h : env s = some w) : eval ctx env (.name s) = .ok w := by
  simp only [eval, lookup, h]; rfl

theorem eval_Lm {α : Type} (A : α → PExpr) (as : List α) :
    eval ctx env (L (as.map A)) = as.mapM (fun a => eval ctx env (A a)) >>= fun vs => .ok (.tup vs) := by
  induction as with
  | nil => rfl
  | cons a as ih =>
    rw [List.map_cons, L, eval, ih, List.mapM_cons]
    simp only [bind_assoc, ok_bind, pure_bind]
    rfl

theorem mapM_eq {α β : Type} {f g : α → Py β} : ∀ (l : List α), (∀ a ∈ l, f a = g a) → l.mapM f = l.mapM g
  | [], _ => rfl
  | a :: l, h => by rw [List.mapM_cons, List.mapM_cons, h a (by simp), mapM_eq l fun b hb => h b (by simp [hb])]

theorem eval_range {A : ℕ → PExpr} {W : ℕ → Py (Val K)} (k : ℕ) (h : ∀ i < k, eval ctx env (A i) = W i) :
    eval ctx env (.tuple (L ((List.range k).map A)) true) = (List.range k).mapM W >>= fun vs => .ok (.tup vs) := by
  rw [eval, eval_Lm, mapM_eq _ fun i hi => h i (List.mem_range.mp hi)]

theorem mapM_range {α β : Type} {f : ℕ → Py β} {g : α → Py β} (l : List α)
    (h : ∀ i a, l[i]? = some a → f i = g a) : (List.range l.length).mapM f = l.mapM g := by
  induction l generalizing f with
  | nil => rfl
  | cons a l ih =>
    rw [List.length_cons, List.range_succ_eq_map, List.mapM_cons, List.mapM_cons, List.mapM_map, h 0 a rfl,
      ih (f := f ∘ Nat.succ) fun i b hb => h (i + 1) b (by simpa using hb)]

theorem mapM_post {α β γ : Type} (F : α → Py β) (G : β → γ) (l : List α) :
    l.mapM (fun a => F a >>= fun x => .ok (G x)) = l.mapM F >>= fun xs => .ok (xs.map G) := by
  induction l with
  | nil => rfl
  | cons a l ih =>
    rw [List.mapM_cons, List.mapM_cons, ih]
    simp only [bind_assoc, pure_bind, ok_bind]
    rfl

/-! ### `fmap` -/

theorem fmap_eval1 (f : Val K) (as : List (Val K)) :
    callFun ctx (mapFun1 as.length) [f, .tup as] = as.mapM (fun a => callVal f (.tup [a])) >>= fun vs => .ok (.tup vs) := by
  simp only [callFun, mapFun1, Spec.PyLang.bind, pure_bind]
  rw [eval_range (W := fun i => eval ctx _ (mapBody1 i)) _ fun _ _ => rfl]
  rw [mapM_range as]
  intro i a ha
  have h1 : eval ctx (Env.set (Env.set (fun _ => none) ['t'] (.tup as)) ['f'] f) (at1 (.name ['t']) (.int i)) = .ok a :=
    eval_at_tup (eval_name (by simp [Env.set])) (eval_int i) ha
  simp only [mapBody1, L]
  rw [eval, eval_name (w := f) (by simp [Env.set]), eval, h1]
  rfl

theorem fmap_eval2 (f : Val K) (as bs : List (Val K)) (h : as.length = bs.length) :
    callFun ctx (mapFun2 as.length) [f, .tup as, .tup bs]
      = (as.zip bs).mapM (fun p => callVal f (.tup [p.1, p.2])) >>= fun vs => .ok (.tup vs) := by
  simp only [callFun, mapFun2, Spec.PyLang.bind, pure_bind]
  rw [eval_range (W := fun i => eval ctx _ (mapBody2 i)) _ fun _ _ => rfl]
  rw [show as.length = (as.zip bs).length by simp [h], mapM_range (as.zip bs)]
  rintro i ⟨a, b⟩ hab
  rw [List.getElem?_zip_eq_some] at hab
  have h1 : eval ctx (Env.set (Env.set (Env.set (fun _ => none) ['t', '2'] (.tup bs)) ['t', '1'] (.tup as)) ['f'] f)
      (at1 (.name ['t', '1']) (.int i)) = .ok a := eval_at_tup (eval_name (by simp [Env.set])) (eval_int i) hab.1
  have h2 : eval ctx (Env.set (Env.set (Env.set (fun _ => none) ['t', '2'] (.tup bs)) ['t', '1'] (.tup as)) ['f'] f)
      (at1 (.name ['t', '2']) (.int i)) = .ok b := eval_at_tup (eval_name (by simp [Env.set])) (eval_int i) hab.2
  simp only [mapBody2, L]
  rw [eval, eval_name (w := f) (by simp [Env.set]), eval, h1, eval, h2]
  rfl

theorem fmap_evalX (f x : Val K) (as : List (Val K)) :
    callFun ctx (mapFunX as.length) [f, .tup as, x] = as.mapM (fun a => callVal f (.tup [a, x])) >>= fun vs => .ok (.tup vs) := by
  simp only [callFun, mapFunX, Spec.PyLang.bind, pure_bind]
  rw [eval_range (W := fun i => eval ctx _ (mapBodyX i)) _ fun _ _ => rfl]
  rw [mapM_range as]
  intro i a ha
  have h1 : eval ctx (Env.set (Env.set (Env.set (fun _ => none) ['x'] x) ['t', '1'] (.tup as)) ['f'] f)
      (at1 (.name ['t', '1']) (.int i)) = .ok a := eval_at_tup (eval_name (by simp [Env.set])) (eval_int i) ha
  simp only [mapBodyX, L]
  rw [eval, eval_name (w := f) (by simp [Env.set]), eval, h1, eval, eval_name (w := x) (by simp [Env.set])]
  rfl

/-! ### `funzip` -/

theorem funzip_eval (rows : List (List (Val K))) (l : ℕ) (h : ∀ r ∈ rows, r.length = l) :
    callFun ctx (zipFun rows.length l) [.tup (rows.map .tup)]
      = .ok (.tup ((List.range l).map fun j => .tup (rows.map fun r => r.getD j .none))) := by
  simp only [callFun, zipFun, Spec.PyLang.bind, pure_bind]
  rw [eval_range (W := fun j => .ok (.tup (rows.map fun r => r.getD j .none))) _ ?_, mapM_ok _ _ _ (fun _ _ => rfl)]
  · rfl
  intro j hj
  rw [zipRow, eval_range (W := fun i => eval ctx _ (at1 (at1 (.name ['t']) (.int i)) (.int j))) _ fun _ _ => rfl]
  rw [mapM_range (g := fun r : List (Val K) => .ok (r.getD j .none)) rows, mapM_ok _ _ _ (fun _ _ => rfl)]
  · rfl
  intro i r hr
  have hl := h r (List.mem_of_getElem? hr)
  refine eval_at_tup (vs := r) (eval_at_tup (eval_name (by simp [Env.set]; rfl)) (eval_int i) ?_) (eval_int j) ?_
  · rw [List.getElem?_map, hr]; rfl
  · rw [List.getD_eq_getElem?_getD, List.getElem?_eq_getElem (by omega)]; rfl

/-! ### `extract_row` -/

theorem extractRow_eval (A : NdArray K) (n d : ℕ) (w : Val K) :
    callFun ctx (rowFun d) [.arr A, .int n, w] = extractRow A n d >>= fun x => .ok (.tup (x.map .flt)) := by
  simp only [callFun, rowFun, Spec.PyLang.bind, pure_bind]
  rw [eval_range (W := fun i => A.read [(n : ℤ), (i : ℤ)] >>= fun x => .ok (.flt x)) _ ?_]
  · rw [extractRow, mapM_post, bind_assoc]; rfl
  · intro i _
    simp only [rowItem, L]
    rw [eval, eval_name (w := .arr A) (by simp [Env.set]), eval, eval_name (w := .int n) (by simp [Env.set])]
    rfl

/-! ### `get_coeffs` -/

theorem eval_ij {is : List ℤ} {X : NdArray K} (hI : env ['I'] = some (.tup (is.map .int))) {j : ℕ} {i : ℤ} (h : is[j]? = some i) :
    eval ctx env (ij j) = .ok (.int i) ∧ eval ctx env (ij1 j) = .ok (.int (i + 1)) := by
  have h1 : eval ctx env (ij j) = .ok (.int i) :=
    eval_at_tup (eval_name hI) (eval_int j) (by rw [List.getElem?_map, h]; rfl)
  refine ⟨h1, ?_⟩
  rw [ij1, eval_bin (by simp) h1 (eval_int 1)]
  rfl

theorem toInts_ints (zs : List ℤ) : toInts (zs.map (Val.int (K := K))) = .ok zs := by
  induction zs with
  | nil => rfl
  | cons z zs ih => rw [List.map_cons, toInts, ih]; rfl

theorem eval_coeffs (X : NdArray K) (is : List ℤ) (hX : env ['X'] = some (.arr X)) (hI : env ['I'] = some (.tup (is.map .int))) :
    ∀ (d j : ℕ) (pre : List PExpr) (zs : List ℤ), j + d = is.length → eval ctx env (L pre) = .ok (.tup (zs.map .int)) →
      eval ctx env (coeffA d j pre) = getCoeffs X (is.drop j) zs >>= fun t => .ok (tupVal t)
  | 0, j, pre, zs, hj, hp => by
    rw [List.drop_of_length_le (by omega), getCoeffs, coeffA, eval, eval_name hX, hp]
    simp only [ok_bind, indexVal, getItem, toInts_ints, bind_assoc, pure_bind]
    rfl
  | d + 1, j, pre, zs, hj, hp => by
    have hlt : j < is.length := by omega
    have hsome : is[j]? = some is[j] := List.getElem?_eq_getElem hlt
    obtain ⟨e0, e1⟩ := eval_ij (ctx := ctx) (X := X) hI hsome
    have snoc : ∀ e z, eval ctx env e = .ok (.int z) → eval ctx env (L (pre ++ [e])) = .ok (.tup ((zs ++ [z]).map .int)) := by
      intro e z he
      clear hj
      induction pre generalizing zs with
      | nil =>
        rw [L, eval] at hp
        cases zs with
        | nil => simp only [List.nil_append, L, eval, he, ok_bind]; rfl
        | cons => cases hp
      | cons a pre ih =>
        rw [L, eval] at hp
        cases ha : eval ctx env a with
        | error x => rw [ha] at hp; cases hp
        | ok va =>
          cases hL : eval ctx env (L pre) with
          | error x => rw [ha, hL] at hp; cases hp
          | ok vl =>
            rw [ha, hL] at hp
            cases vl with
            | tup vs =>
              cases zs with
              | nil => cases hp
              | cons z' zs =>
                have hp : (Except.ok (.tup (va :: vs)) : Py (Val K)) = .ok (.tup (.int z' :: zs.map .int)) := hp
                injection hp with hp
                injection hp with hp
                injection hp with hp1 hp2
                have := ih zs (by rw [hL, hp2])
                rw [List.cons_append, L, eval, ha, this, hp1]
                rfl
            | _ => cases hp
    have i0 := eval_coeffs X is hX hI d (j + 1) (pre ++ [ij j]) (zs ++ [is[j]]) (by omega) (snoc _ _ e0)
    have i1 := eval_coeffs X is hX hI d (j + 1) (pre ++ [ij1 j]) (zs ++ [is[j] + 1]) (by omega) (snoc _ _ e1)
    rw [List.drop_eq_getElem_cons hlt, getCoeffs, coeffA, eval, L, L, L, eval, i0, eval, i1, eval]
    simp only [bind_assoc, pure_bind, ok_bind]
    rfl

theorem getCoeffs_eval (X : NdArray K) (is : List ℤ) :
    callFun ctx (coeffFun is.length) [.arr X, .tup (is.map .int)] = getCoeffs X is [] >>= fun t => .ok (tupVal t) := by
  simp only [callFun, coeffFun, Spec.PyLang.bind, pure_bind]
  exact eval_coeffs X is (by simp [Env.set]) (by simp [Env.set]) is.length 0 [] [] (by simp) rfl

/-! ### `tensor_reduction` -/

theorem eval_bin' {o : Op} {a b : PExpr} (ho : o ≠ .kOr) :
    eval ctx env (.bin o a b) = eval ctx env a >>= fun v => eval ctx env b >>= fun w => binary o v w := by
  rw [eval]; simp only [if_neg ho]

/-- Nested pairs of depth `d`. -/
def Depth : ℕ → Tup K → Prop
  | 0, .leaf _ => True
  | d + 1, .node l r => Depth d l ∧ Depth d r
  | _, _ => False

theorem getCoeffs_depth (X : NdArray K) : ∀ (is pre : List ℤ) (t : Tup K), getCoeffs X is pre = .ok t → Depth is.length t
  | [], pre, t, h => by
    rw [getCoeffs] at h
    cases hr : X.read pre with
    | error e => rw [hr] at h; cases h
    | ok x => rw [hr] at h; cases h; trivial
  | i :: is, pre, t, h => by
    rw [getCoeffs] at h
    cases h0 : getCoeffs X is (pre ++ [i]) with
    | error e => rw [h0] at h; cases h
    | ok l =>
      cases h1 : getCoeffs X is (pre ++ [i + 1]) with
      | error e => rw [h0, h1] at h; cases h
      | ok r =>
        rw [h0, h1] at h; cases h
        exact ⟨getCoeffs_depth X is _ l h0, getCoeffs_depth X is _ r h1⟩

def bit (b : Bool) : ℕ := if b then 1 else 0

theorem eval_reduction (hK : LawfulLit K) (C : Tup K) (ls : List K) (hl : env ['l'] = some (.tup (ls.map .flt))) :
    ∀ (d j : ℕ) (inds : List Bool) (S : Tup K), j + d = ls.length → Depth d S →
      eval ctx env (atAll (.name ['C']) (inds.map bit)) = .ok (tupVal S) → (∀ js, C.at (inds ++ js) = S.at js) →
      eval ctx env (redA d j (inds.map bit)) = tensorReduction C (ls.drop j) inds >>= fun x => .ok (.flt x)
  | 0, j, inds, S, hj, hS, he, hat => by
    rw [List.drop_of_length_le (by omega), tensorReduction, redA, he]
    have := hat []
    rw [List.append_nil] at this
    rw [this]
    cases S with
    | leaf x => rfl
    | node l r => exact hS.elim
  | d + 1, j, inds, S, hj, hS, he, hat => by
    have hlt : j < ls.length := by omega
    have el : eval ctx env (lj j) = .ok (.flt ls[j]) :=
      eval_at_tup (eval_name hl) (eval_int j) (by rw [List.getElem?_map, List.getElem?_eq_getElem hlt]; rfl)
    cases S with
    | leaf x => exact hS.elim
    | node l r =>
      have sub : ∀ (b : Bool) (T : Tup K), T = (if b then r else l) →
          eval ctx env (redA d (j + 1) ((inds ++ [b]).map bit)) = tensorReduction C (ls.drop (j + 1)) (inds ++ [b]) >>= fun x => .ok (.flt x) := by
        intro b T hT
        refine eval_reduction hK C ls hl d (j + 1) (inds ++ [b]) T (by omega) ?_ ?_ ?_
        · rw [hT]; cases b
          · exact hS.1
          · exact hS.2
        · rw [List.map_append, atAll, List.foldl_append]
          rw [atAll] at he
          refine eval_at_tup (n := bit b) he (eval_int _) ?_
          rw [hT]; cases b <;> rfl
        · intro js
          rw [List.append_assoc, hat, hT]
          cases b <;> rfl
      have i0 := sub false l rfl
      have i1 := sub true r rfl
      simp only [List.map_append, List.map_cons, List.map_nil] at i0 i1
      have eh : eval ctx env (.paren (.bin .minus (.int 1) (lj j))) = .ok (.flt (1 - ls[j])) := by
        rw [eval_paren, eval_bin (by simp) (eval_int 1) el]
        simp only [binary, arith, toFloat, pure_bind, Nat.cast_one]
        rw [lit1 hK]; rfl
      rw [List.drop_eq_getElem_cons hlt, tensorReduction, redA]
      have m0 : eval ctx env (.bin .star (.paren (.bin .minus (.int 1) (lj j))) (.paren (redA d (j + 1) (inds.map bit ++ [0]))))
          = tensorReduction C (ls.drop (j + 1)) (inds ++ [false]) >>= fun x => .ok (.flt ((1 - ls[j]) * x)) := by
        rw [eval_bin' (by simp), eh, ok_bind, eval_paren, show inds.map bit ++ [0] = inds.map bit ++ [bit false] from rfl, i0]
        cases tensorReduction C (ls.drop (j + 1)) (inds ++ [false]) <;> rfl
      have m1 : eval ctx env (.bin .star (lj j) (.paren (redA d (j + 1) (inds.map bit ++ [1]))))
          = tensorReduction C (ls.drop (j + 1)) (inds ++ [true]) >>= fun x => .ok (.flt (ls[j] * x)) := by
        rw [eval_bin' (by simp), el, ok_bind, eval_paren, show inds.map bit ++ [1] = inds.map bit ++ [bit true] from rfl, i1]
        cases tensorReduction C (ls.drop (j + 1)) (inds ++ [true]) <;> rfl
      rw [eval_bin' (by simp), m0, m1]
      cases tensorReduction C (ls.drop (j + 1)) (inds ++ [false]) with
      | error e => rfl
      | ok x => cases tensorReduction C (ls.drop (j + 1)) (inds ++ [true]) <;> rfl

theorem reduction_eval (hK : LawfulLit K) (C : Tup K) (ls : List K) (hC : Depth ls.length C) :
    callFun ctx (redFun ls.length) [tupVal C, .tup (ls.map .flt)] = tensorReduction C ls [] >>= fun x => .ok (.flt x) := by
  simp only [callFun, redFun, Spec.PyLang.bind, pure_bind]
  exact eval_reduction hK C ls (by simp [Env.set]) ls.length 0 [] C (by simp) hC (eval_name (by simp [Env.set])) (fun _ => rfl)

end Interp.PyParse
