import Verif.Proofs.PyRun
import Verif.Proofs.PyStmts
import Verif.Proofs.CodegenWhole
import Verif.Proofs.CodegenCall
import Verif.Spec.PyCall

/-!
# Generated programs consist of the statements that the simulation is about
-/

namespace Interp.PyParse
open Interp.Spec.PyLang
open Interp.Codegen hiding exec

set_option linter.unusedSectionVars false

/-! ### Expressions -/

theorem joinPlus_good {l : List TExpr} (h : ∀ e ∈ l, tGood e ∧ ∃ c d, e = .mul c d) (hl : l ≠ []) : tGood (joinPlus l) := by
  cases l with
  | nil => exact absurd rfl hl
  | cons e es =>
    have : ∀ (es : List TExpr) (e : TExpr), tGood e → (∀ e ∈ es, tGood e ∧ ∃ c d, e = .mul c d) → tGood (es.foldl .add e) := by
      intro es
      induction es with
      | nil => intro e he _; exact he
      | cons a as ih =>
        intro e he h
        exact ih _ ⟨he, h a (by simp)⟩ fun b hb => h b (by simp [hb])
    exact this es e (h e (by simp)).1 fun b hb => h b (by simp [hb])

theorem genTrex_good (m : Bool) (l : List (List TExpr)) (inds : List ℕ) (h : ∀ a ∈ l, a ≠ [] ∧ ∀ e ∈ a, ∃ o i j, e = .phi o i j)
    (hi : l = [] → inds ≠ []) : tGood (genTrex l (fun arg => .coef arg m) inds) := by
  induction l generalizing inds with
  | nil => exact hi rfl
  | cons a q ih =>
    simp only [genTrex]
    refine joinPlus_good ?_ ?_
    · intro e he
      obtain ⟨i, hi, rfl⟩ := List.mem_mapIdx.mp he
      exact ⟨⟨(h a (by simp)).2 _ (List.getElem_mem hi), ih _ (fun b hb => h b (by simp [hb])) (by simp)⟩, _, _, rfl⟩
    · have := (h a (by simp)).1
      simpa using this

theorem getValues_good {d : ℕ} {m : Bool} {k : ℕ} {diffs : Option (List ℕ)} (hk : 1 ≤ k) (hd : diffs.getD (List.replicate d 0) ≠ []) :
    tGood (getValues d m k diffs) := by
  refine genTrex_good m _ _ ?_ ?_
  · intro a ha
    obtain ⟨i, hi, rfl⟩ := List.mem_mapIdx.mp ha
    refine ⟨by simp; omega, fun e he => ?_⟩
    obtain ⟨j, -, rfl⟩ := List.mem_map.mp he
    exact ⟨_, _, _, rfl⟩
  · intro h
    exact absurd (by simpa using h) hd

theorem joinPlus_vec {b : Bool} {l : List TExpr} (h : ∀ e ∈ l, exprVec b e) : exprVec b (joinPlus l) := by
  cases l with
  | nil => trivial
  | cons e es =>
    have : ∀ (es : List TExpr) (e : TExpr), exprVec b e → (∀ e ∈ es, exprVec b e) → exprVec b (es.foldl .add e) := by
      intro es
      induction es with
      | nil => intro e he _; exact he
      | cons a as ih =>
        intro e he h
        exact ih _ ⟨he, h a (by simp)⟩ fun b hb => h b (by simp [hb])
    exact this es e (h e (by simp)) fun b hb => h b (by simp [hb])

theorem genTrex_vec (m : Bool) (l : List (List TExpr)) (inds : List ℕ) (h : ∀ a ∈ l, ∀ e ∈ a, ∃ o i j, e = .phi o i j) :
    exprVec m (genTrex l (fun arg => .coef arg m) inds) := by
  induction l generalizing inds with
  | nil => exact rfl
  | cons a q ih =>
    simp only [genTrex]
    refine joinPlus_vec ?_
    intro e he
    obtain ⟨i, hi, rfl⟩ := List.mem_mapIdx.mp he
    obtain ⟨o, i', j, hp⟩ := h a (by simp) _ (List.getElem_mem hi)
    rw [hp]
    exact ⟨trivial, ih _ (fun b hb => h b (by simp [hb]))⟩

theorem getValues_vec (d : ℕ) (m : Bool) (k : ℕ) (diffs : Option (List ℕ)) : exprVec m (getValues d m k diffs) := by
  refine genTrex_vec m _ _ ?_
  intro a ha e he
  obtain ⟨i, hi, rfl⟩ := List.mem_mapIdx.mp ha
  obtain ⟨j, -, rfl⟩ := List.mem_map.mp he
  exact ⟨_, _, _, rfl⟩

theorem valName_digits (oo : List ℕ) : ∀ c ∈ valName oo, c.isDigit = true := by
  intro c hc
  obtain ⟨n, -, hc⟩ := List.mem_flatMap.mp hc
  exact digits_all hc

/-! ### The blending functions -/

theorem mapM_elim {α β : Type} {f : α → Py β} {l : List α} {r : List β} (h : l.mapM f = .ok r) :
    (∀ a ∈ l, ∃ b, f a = .ok b) ∧ ∀ b ∈ r, ∃ a ∈ l, f a = .ok b := by
  induction l generalizing r with
  | nil => cases h; simp
  | cons a l ih =>
    rw [List.mapM_cons] at h
    obtain ⟨b, h1, h⟩ := of_bind h
    obtain ⟨r', h2, h⟩ := of_bind h
    cases h
    obtain ⟨h3, h4⟩ := ih h2
    constructor
    · intro x hx
      rcases List.mem_cons.mp hx with rfl | hx
      · exact ⟨b, h1⟩
      · exact h3 x hx
    · intro y hy
      rcases List.mem_cons.mp hy with rfl | hy
      · exact ⟨a, by simp, h1⟩
      · obtain ⟨x, hx, e⟩ := h4 y hy
        exact ⟨x, by simp [hx], e⟩

def isBlend : Stmt → Prop
  | .blend1 .. | .blend3 .. => True
  | _ => False

theorem genBasis_blend {cfg : Cfg} {b : List Stmt} (h : genBasis cfg = .ok b) : ∀ st ∈ b, isBlend st := by
  simp only [genBasis] at h
  obtain ⟨bs, h1, h'⟩ := of_bind h
  cases h'
  intro st hst
  obtain ⟨l, hl, hst⟩ := List.mem_flatten.mp hst
  obtain ⟨i, -, hi⟩ := (mapM_elim h1).2 l hl
  split at hi
  · cases hi
  · obtain ⟨o, -, ho⟩ := (mapM_elim hi).2 st hst
    simp only [blendingFormula] at ho
    split_ifs at ho <;> cases ho <;> trivial

theorem genBasis_orders {cfg : Cfg} {b : List Stmt} (h : genBasis cfg = .ok b) (hd : 1 ≤ cfg.d) {os : List (List ℕ)} (ho : cfg.orders = some os) :
    os ≠ [] ∧ ∀ o ∈ os, o ≠ [] := by
  simp only [genBasis] at h
  obtain ⟨bs, h, -⟩ := of_bind h
  obtain ⟨x, hx⟩ := (mapM_elim h).1 0 (List.mem_range.mpr hd)
  have hlen : 0 < ((os.map List.length).min?).getD 0 := by
    by_contra hn
    have h0 : ((os.map List.length).min?).getD 0 = 0 := by omega
    simp only [basesOrders, ho, h0, List.range_zero, List.map_nil, List.getElem?_nil] at hx
    cases hx
  cases hm : (os.map List.length).min? with
  | none => rw [hm] at hlen; simp at hlen
  | some m =>
    rw [hm] at hlen
    have hm' := List.min?_eq_some_iff.mp hm
    constructor
    · rintro rfl; simp at hm
    · rintro o ho' rfl
      have := hm'.2 0 (List.mem_map.mpr ⟨[], ho', rfl⟩)
      simp at hlen
      omega

/-! ### What programs consist of -/

theorem getCodeSpline_elim {cfg : Cfg} {p : Program} (h : getCodeSpline cfg = .ok p) : ∃ b, genBasis cfg = .ok b ∧
    p = if cfg.vectorized then
      { prelude := genAllocVec cfg ++ genRecover cfg true
        body := genCoords cfg .zeroContinue ++ genLocate cfg ++ b ++ genReduceVec cfg
        retOut := cfg.allocate }
    else
      { prelude := genAllocPoint cfg ++ genRecover cfg false ++ genCoords cfg (pointGuard cfg)
          ++ genLocate cfg ++ b ++ genReducePoint cfg
        body := []
        retOut := false } := by
  simp only [getCodeSpline] at h
  split at h
  · cases h
  · obtain ⟨b, h1, h2⟩ := of_bind h
    refine ⟨b, h1, ?_⟩
    split at h2 <;> rename_i hv <;> cases h2
    · rw [if_pos hv]
    · rw [if_neg hv]

/-- Statements that set up the grid. -/
def isRecover : Stmt → Prop
  | .recoverUniform _ | .recoverNonuniform .. => True
  | _ => False

def isLocate : Stmt → Prop
  | .locateUniform _ | .locateNonuniform _ => True
  | _ => False

def isCoord (d : ℕ) (g : GuardBody) : Stmt → Prop
  | .loadX i => i < d
  | .clampNearest _ => True
  | .constGuard _ g' => g' = g
  | _ => False

theorem genRecover_is (cfg : Cfg) (b : Bool) : ∀ st ∈ genRecover cfg b, isRecover st := by
  intro st hst
  obtain ⟨i, -, hi⟩ := List.mem_flatMap.mp hst
  split at hi
  · simp only [List.mem_singleton] at hi; subst hi; trivial
  · simp only [List.mem_singleton] at hi; subst hi; trivial
  · simp at hi

theorem genLocate_is (cfg : Cfg) : ∀ st ∈ genLocate cfg, isLocate st := by
  intro st hst
  obtain ⟨i, -, hi⟩ := List.mem_flatMap.mp hst
  split at hi
  · simp only [List.mem_singleton] at hi; subst hi; trivial
  · simp only [List.mem_singleton] at hi; subst hi; trivial
  · simp at hi

theorem genCoords_is (cfg : Cfg) (g : GuardBody) : ∀ st ∈ genCoords cfg g, isCoord cfg.d g st := by
  intro st hst
  obtain ⟨i, hi, h⟩ := List.mem_flatMap.mp hst
  simp only [List.mem_append, List.mem_singleton] at h
  rcases h with (rfl | h) | h
  · exact List.mem_range.mp hi
  · split_ifs at h
    · simp only [List.mem_singleton] at h; subst h; trivial
    · simp at h
  · split_ifs at h
    · simp only [List.mem_singleton] at h; subst h; exact rfl
    · simp at h

/-- A property of all statements of a program. -/
theorem all_append {α : Type} {P : α → Prop} {l m : List α} : (∀ x ∈ l ++ m, P x) ↔ (∀ x ∈ l, P x) ∧ ∀ x ∈ m, P x := by
  constructor
  · intro h; exact ⟨fun x hx => h x (by simp [hx]), fun x hx => h x (by simp [hx])⟩
  · rintro ⟨h1, h2⟩ x hx
    rcases List.mem_append.mp hx with h | h
    · exact h1 x h
    · exact h2 x h

theorem recover_good {st : Stmt} (h : isRecover st) : stGood st ∧ plain st := by
  cases st <;> first | exact h.elim | exact ⟨trivial, trivial⟩

theorem locate_good {st : Stmt} (h : isLocate st) : stGood st ∧ plain st := by
  cases st <;> first | exact h.elim | exact ⟨trivial, trivial⟩

theorem blend_good {st : Stmt} (h : isBlend st) : stGood st ∧ plain st := by
  cases st <;> first | exact h.elim | exact ⟨trivial, trivial⟩

theorem coord_good {d : ℕ} {g : GuardBody} {st : Stmt} (h : isCoord d g st) : stGood st := by
  cases st <;> first | exact h.elim | trivial

theorem plain_noCont {st : Stmt} (h : plain st) : noCont st := by
  cases st <;> first | exact h.elim | trivial

theorem plain_noRet {st : Stmt} (h : plain st) : noRet st := by
  cases st <;> first | exact h.elim | trivial

theorem coord_noRet {d : ℕ} {st : Stmt} (h : isCoord d .zeroContinue st) : noRet st := by
  cases st <;> first | exact h.elim | trivial | (obtain rfl : _ = _ := h; trivial)

theorem coord_noCont {d : ℕ} {cfg : Cfg} {st : Stmt} (h : isCoord d (pointGuard cfg) st) : noCont st := by
  cases st with
  | constGuard i g =>
    obtain rfl : g = pointGuard cfg := h
    simp only [pointGuard]
    split_ifs <;> trivial
  | _ => first | exact h.elim | trivial

theorem alloc_good (cfg : Cfg) : (∀ st ∈ genAllocVec cfg, stGood st ∧ plain st) ∧ ∀ st ∈ genAllocPoint cfg, stGood st ∧ plain st := by
  constructor
  · intro st hst
    simp only [genAllocVec] at hst
    rcases List.mem_append.mp hst with h | h <;> split_ifs at h <;> simp at h <;> subst h <;> exact ⟨trivial, trivial⟩
  · intro st hst
    simp only [genAllocPoint] at hst
    split_ifs at hst
    · cases ho : cfg.orders <;> simp only [ho, List.mem_append, List.mem_singleton] at hst <;> rcases hst with rfl | rfl <;> exact ⟨trivial, trivial⟩
    · simp at hst; subst hst; exact ⟨trivial, trivial⟩
    · cases ho : cfg.orders <;> simp only [ho, List.mem_singleton, List.not_mem_nil] at hst
      subst hst; exact ⟨trivial, trivial⟩
    · simp at hst

section
variable {cfg : Cfg} (hd : 1 ≤ cfg.d) (ho : ∀ os, cfg.orders = some os → os ≠ [] ∧ ∀ o ∈ os, o ≠ [])
include hd ho

theorem reduceVec_good : ∀ st ∈ genReduceVec cfg, stGood st ∧ plain st := by
  have hr : List.replicate cfg.d 0 ≠ [] := by simp; omega
  intro st hst
  simp only [genReduceVec] at hst
  split_ifs at hst
  · split at hst
    · simp only [List.mem_singleton] at hst; subst hst
      exact ⟨getValues_good (by omega) hr, trivial⟩
    · rename_i os e
      simp only [List.mem_singleton] at hst; subst hst
      refine ⟨⟨by simpa using (ho os e).1, ?_, ?_⟩, trivial⟩
      · intro q hq
        obtain ⟨o, h1, rfl⟩ := List.mem_map.mp hq
        exact ⟨valName_digits o, getValues_good (by omega) ((ho os e).2 o h1)⟩
      · intro q hq
        obtain ⟨o, -, rfl⟩ := List.mem_map.mp hq
        exact valName_digits o
  · split at hst
    · rename_i os e
      rcases List.mem_append.mp hst with h | h
      · obtain ⟨o, h1, rfl⟩ := List.mem_map.mp h
        exact ⟨⟨valName_digits o, getValues_good (by omega) ((ho os e).2 o h1)⟩, trivial⟩
      · obtain ⟨i, hi, rfl⟩ := List.mem_mapIdx.mp h
        exact ⟨valName_digits _, trivial⟩
    · simp only [List.mem_singleton] at hst; subst hst
      exact ⟨getValues_good (by omega) hr, trivial⟩

theorem reducePoint_good : ∀ st ∈ genReducePoint cfg, stGood st ∧ noCont st := by
  have hr : List.replicate cfg.d 0 ≠ [] := by simp; omega
  intro st hst
  by_cases hv : cfg.vectorValued = true
  · simp only [genReducePoint, hv, if_true] at hst
    rcases List.mem_append.mp hst with h | h
    · have : st ∈ genReduceVec cfg := by simp only [genReduceVec, hv, if_true]; exact h
      have := reduceVec_good hd ho st this
      exact ⟨this.1, plain_noCont this.2⟩
    · split_ifs at h
      · simp only [List.mem_singleton] at h
        subst h; exact ⟨trivial, trivial⟩
      · simp at h
  · simp only [genReducePoint, hv, if_false, Bool.false_eq_true] at hst
    cases e : cfg.orders with
    | some os =>
      simp only [e] at hst
      rcases List.mem_append.mp hst with h | h
      · obtain ⟨o, h1, rfl⟩ := List.mem_map.mp h
        exact ⟨⟨valName_digits o, getValues_good (by omega) ((ho os e).2 o h1)⟩, trivial⟩
      · by_cases ha : cfg.allocate = true
        · simp only [ha, if_true, List.mem_singleton] at h; subst h
          refine ⟨⟨by simpa using (ho os e).1, ?_⟩, trivial⟩
          intro q hq
          obtain ⟨o, -, rfl⟩ := List.mem_map.mp hq
          exact valName_digits o
        · simp only [ha, if_false, Bool.false_eq_true] at h
          obtain ⟨i, hi, rfl⟩ := List.mem_mapIdx.mp h
          exact ⟨valName_digits _, trivial⟩
    | none =>
      simp only [e, List.mem_singleton] at hst; subst hst
      exact ⟨getValues_good (by omega) hr, trivial⟩

end

/-! ### What statements need -/

section
variable {K : Type} [Add K] [Sub K] [Mul K] [Div K] [Neg K] [Zero K] [One K] [NatCast K]
  [IntCast K] [LT K] [DecidableLT K] [BEq K] [IntFloor K]
variable {cfg : Cfg} {pv : Val K} {c : Ctx K}

theorem recover_fits {st : Stmt} (h : isRecover st) : stFits cfg pv c st := by
  cases st <;> first | exact h.elim | trivial

theorem locate_fits {st : Stmt} (h : isLocate st) : stFits cfg pv c st := by
  cases st <;> first | exact h.elim | trivial

theorem blend_fits {st : Stmt} (h : isBlend st) : stFits cfg pv c st := by
  cases st <;> first | exact h.elim | trivial

/-- Reading a coordinate. -/
def Loads (pv : Val K) (pre : List ℤ) (x : List K) (d : ℕ) : Prop :=
  ∀ i < d, getItem pv ((pre.map .int) ++ [.int (i : ℤ)]) = listRead x i >>= fun x => .ok (.flt x)

theorem coord_fits_point {d : ℕ} (hv : cfg.vectorized = false) (hx : Loads pv [] c.x d) {st : Stmt} (h : isCoord d (pointGuard cfg) st) :
    stFits cfg pv c st := by
  cases st with
  | loadX i => exact ⟨by simp [hv], fun _ => hx i h⟩
  | clampNearest i => trivial
  | constGuard i g =>
    obtain rfl : g = pointGuard cfg := h
    simp only [pointGuard]
    split_ifs with h1 h2
    · simp [stFits, outDims, h1]
    · simp [stFits, outDims, h1]
    · trivial
  | _ => exact h.elim

theorem coord_fits_rows {d m : ℕ} (hv : cfg.vectorized = true) (hp : c.pre = [m]) (hx : Loads pv [(m : ℤ)] c.x d) {st : Stmt}
    (h : isCoord d .zeroContinue st) : stFits cfg pv c st := by
  cases st with
  | loadX i => exact ⟨fun _ => ⟨m, hp, hx i h⟩, by simp [hv]⟩
  | clampNearest i => trivial
  | constGuard i g =>
    obtain rfl : g = .zeroContinue := h
    exact ⟨hv, m, hp⟩
  | _ => exact h.elim

theorem reduce_vec_fits (hv : cfg.vectorValued = true) (hr : RowOK cfg c) (hp : c.pre.length = if cfg.vectorized then 1 else 0) {st : Stmt}
    (h : st ∈ (match cfg.orders with
      | none => [Stmt.storeComp (getValues cfg.d true (cfg.k + 1) none)]
      | some os => [Stmt.storeCompOrders
          (os.map fun oo => (valName oo, getValues cfg.d true (cfg.k + 1) (some oo)))
          (os.map valName)])) : stFits cfg pv c st := by
  cases e : cfg.orders with
  | none =>
    simp only [e, List.mem_singleton] at h; subst h
    exact ⟨hr, getValues_vec .., by simp [outDims, hv, e, hp]⟩
  | some os =>
    simp only [e, List.mem_singleton] at h; subst h
    refine ⟨hr, ?_, by simp [outDims, hv, e, hp]⟩
    intro q hq
    obtain ⟨o, -, rfl⟩ := List.mem_map.mp hq
    exact getValues_vec ..

theorem reduceVec_fits (hz : cfg.vectorized = true) (hr : RowOK cfg c) (hp : c.pre.length = if cfg.vectorized then 1 else 0) {st : Stmt}
    (h : st ∈ genReduceVec cfg) : stFits cfg pv c st := by
  by_cases hv : cfg.vectorValued = true
  · simp only [genReduceVec, hv, if_true] at h
    exact reduce_vec_fits hv hr hp h
  · simp only [genReduceVec, hv, if_false, Bool.false_eq_true] at h
    cases e : cfg.orders with
    | some os =>
      simp only [e] at h
      rcases List.mem_append.mp h with h | h
      · obtain ⟨o, h1, rfl⟩ := List.mem_map.mp h
        exact getValues_vec ..
      · obtain ⟨i, hi, rfl⟩ := List.mem_mapIdx.mp h
        exact ⟨hr, by simp [outDims, hv, e, hp]⟩
    | none =>
      simp only [e, List.mem_singleton] at h; subst h
      exact ⟨hr, hz, getValues_vec .., by simp [outDims, hv, e, hp], by simp [outDims, hz]⟩

theorem reducePoint_fits (hr : RowOK cfg c) (hp : c.pre.length = if cfg.vectorized then 1 else 0) {st : Stmt}
    (h : st ∈ genReducePoint cfg) : stFits cfg pv c st := by
  by_cases hv : cfg.vectorValued = true
  · simp only [genReducePoint, hv, if_true] at h
    rcases List.mem_append.mp h with h | h
    · exact reduce_vec_fits hv hr hp h
    · split_ifs at h
      · simp only [List.mem_singleton] at h; subst h; trivial
      · simp at h
  · simp only [genReducePoint, hv, if_false, Bool.false_eq_true] at h
    cases e : cfg.orders with
    | some os =>
      simp only [e] at h
      rcases List.mem_append.mp h with h | h
      · obtain ⟨o, h1, rfl⟩ := List.mem_map.mp h
        exact getValues_vec ..
      · by_cases ha : cfg.allocate = true
        · simp only [ha, if_true, List.mem_singleton] at h; subst h; trivial
        · simp only [ha, if_false, Bool.false_eq_true] at h
          obtain ⟨i, hi, rfl⟩ := List.mem_mapIdx.mp h
          exact ⟨hr, by simp [outDims, hv, e, hp]⟩
    | none =>
      simp only [e, List.mem_singleton] at h; subst h
      exact getValues_vec ..

theorem allocPoint_fits (hz : cfg.vectorized = false) {st : Stmt} (h : st ∈ genAllocPoint cfg) : stFits cfg pv c st := by
  by_cases hv : cfg.vectorValued = true
  · simp only [genAllocPoint, hv, if_true] at h
    rcases List.mem_append.mp h with h | h
    · simp only [List.mem_singleton] at h; subst h; trivial
    · split_ifs at h
      · cases e : cfg.orders <;> simp only [e, List.mem_singleton] at h <;> subst h <;> simp [stFits, outDims, hv, hz, e]
      · simp at h
  · simp only [genAllocPoint, hv, if_false, Bool.false_eq_true] at h
    split_ifs at h
    · cases e : cfg.orders <;> simp only [e, List.mem_singleton, List.not_mem_nil] at h
      subst h; simp [stFits, outDims, hv, hz, e]
    · simp at h

theorem allocVec_fits (hz : cfg.vectorized = true) (hvv : cfg.vectorValued = decide (c.C.shape.length = c.grid.length + 1)) {P : NdArray K} {w : ℕ}
    (hP : P.shape = [c.npts, w]) {st : Stmt} (h : st ∈ genAllocVec cfg) : stFits cfg (.arr P) c st := by
  simp only [genAllocVec] at h
  rcases List.mem_append.mp h with h | h <;> split_ifs at h <;> simp only [List.mem_singleton, List.not_mem_nil] at h <;> subst h
  · trivial
  · exact ⟨rfl, rfl, hz, hvv, P, w, rfl, hP⟩

/-! ### Arguments -/

theorem encAxis_eq : (axisVal : GridDim K → Val K) = encAxis := by
  funext g; cases g <;> rfl

theorem encOut_eq : (outVal : Option (NdArray K) → Val K) = encOut := by
  funext g; cases g <;> rfl

theorem isReturn_iff (r : RetVal K) (w : Val K) : RetRel r w ↔ IsReturn r w := by
  cases r <;> exact Iff.rfl

theorem context_glob (g : Glob) : (context : Env K) (nameOf (.glob g)) = some (globVal g) := by
  cases g <;> rfl

theorem loads_tuple {d : ℕ} {x : List K} (h : d ≤ x.length) : Loads (.tup (x.map .flt)) [] x d := by
  intro i hi
  have hi' : i < x.length := by omega
  have hw : wrapIndex x.length (i : ℤ) = some i := by simp [wrapIndex, hi']
  simp [getItem, toInts, listRead, hw, hi', List.getElem?_eq_getElem]

theorem loads_vec {d : ℕ} {x : List K} (h : d ≤ x.length) : Loads (vecVal x) [] x d := by
  intro i hi
  have hi' : i < x.length := by omega
  have hw : wrapIndex x.length (i : ℤ) = some i := by simp [wrapIndex, hi']
  simp [getItem, toInts, listRead, hw, hi', vecVal, NdArray.read, wrapIndices, List.getElem?_eq_getElem]

theorem loads_row {d w : ℕ} {xs : List (List K)} {P : NdArray K} (hd : d ≤ w) (hs : P.shape = [xs.length, w]) (hw : ∀ x ∈ xs, x.length = w)
    (h : ∀ n x i y, xs[n]? = some x → x[i]? = some y → P.get [n, i] = y) {m : ℕ} {x : List K} (hm : xs[m]? = some x) :
    Loads (.arr P) [(m : ℤ)] x d := by
  intro i hi
  have hl : x.length = w := hw x (List.mem_of_getElem? hm)
  have hi' : i < x.length := by omega
  have hm' : m < xs.length := (List.getElem?_eq_some_iff.mp hm).1
  have h1 : wrapIndex x.length (i : ℤ) = some i := by simp [wrapIndex, hi']
  have h2 : wrapIndex xs.length (m : ℤ) = some m := by simp [wrapIndex, hm']
  have h3 : x[i]? = some x[i] := List.getElem?_eq_getElem hi'
  have h4 := h m x i _ hm h3
  rw [hl] at h1
  simp [getItem, toInts, listRead, h1, h2, hi', hs, hl, NdArray.read, wrapIndices, h3, h4]

/-! ### The text and the call -/

theorem program_means {p : Program} (h : getCodeSpline cfg = .ok p) (hd : 1 ≤ cfg.d) :
    Means 0 ((Spec.Text.program cfg p).map String.toList) (programA cfg p) := by
  obtain ⟨b, hb, rfl⟩ := getCodeSpline_elim h
  have ho : ∀ os, cfg.orders = some os → os ≠ [] ∧ ∀ o ∈ os, o ≠ [] := fun os e => genBasis_orders hb hd e
  have hbl : ∀ st ∈ b, stGood st := fun st hst => (blend_good (genBasis_blend hb st hst)).1
  by_cases hv : cfg.vectorized = true
  · simp only [hv, if_true]
    refine means_program _ ?_ ?_ ?_ (by simp [hv])
    · exact all_append.mpr ⟨fun st hst => ((alloc_good cfg).1 st hst).1, fun st hst => (recover_good (genRecover_is _ _ st hst)).1⟩
    · exact all_append.mpr ⟨all_append.mpr ⟨all_append.mpr ⟨fun st hst => coord_good (genCoords_is _ _ st hst),
        fun st hst => (locate_good (genLocate_is _ st hst)).1⟩, hbl⟩, fun st hst => (reduceVec_good hd ho st hst).1⟩
    · intro _ hn
      have : Stmt.loadX 0 ∈ genCoords cfg .zeroContinue :=
        List.mem_flatMap.mpr ⟨0, List.mem_range.mpr hd, by simp⟩
      simp at hn
      rw [hn.1] at this
      simp at this
  · simp only [hv, if_false, Bool.false_eq_true]
    refine means_program _ ?_ (by simp) (by simp [hv]) (by simp)
    exact all_append.mpr ⟨all_append.mpr ⟨all_append.mpr ⟨all_append.mpr ⟨all_append.mpr ⟨fun st hst => ((alloc_good cfg).2 st hst).1,
      fun st hst => (recover_good (genRecover_is _ _ st hst)).1⟩, fun st hst => coord_good (genCoords_is _ _ st hst)⟩,
        fun st hst => (locate_good (genLocate_is _ st hst)).1⟩, hbl⟩, fun st hst => (reducePoint_good hd ho st hst).1⟩

theorem program_ev {p : Program} (h : getCodeSpline cfg = .ok p) (hd : 1 ≤ cfg.d) :
    Ev (fun n => pLines n ((Spec.Text.program cfg p).map String.toList)) (programA cfg p) := by
  obtain ⟨hf, js, h1, h2⟩ := program_means h hd
  refine text_ev hf ?_
  have := h1 []
  simp only [List.append_nil] at this
  rw [this]
  simpa [joinLines] using h2

theorem sim_checks {α β : Type} {c1 c2 : Prop} [Decidable c1] [Decidable c2] {e1 e2 : Err} (h1 : ¬ RunTime e1) (h2 : ¬ RunTime e2) {m : Py α} {q : Py β}
    {R : α → β → Prop} (h : Sim m q R) : Sim (do
      if c1 then throw e1
      if c2 then throw e2
      m) q R := by
  by_cases hc1 : c1
  · simp only [hc1, if_true]; exact .fail h1
  · by_cases hc2 : c2
    · simp only [hc1, hc2, if_true, if_false]; exact .fail h2
    · simp only [hc1, hc2, if_false]; exact h

theorem sim_call (hK : LawfulLit K) {G : List (GridDim K)} {C : NdArray K} {pts : Points K} {out : Option (NdArray K)} {k : ℕ}
    {orders : Option (List (List ℕ))} {mode : String} (hG : G ≠ []) {pv : Val K} (hp : IsPoints G.length pts pv)
    (hout : ∀ A, out = some A → A.shape.length = outDims (callCfg G C pts.isRows out.isNone k orders mode) ∨
      outDims (callCfg G C pts.isRows out.isNone k orders mode) = 0) {p : Program}
    (h : getCodeSpline (callCfg G C pts.isRows out.isNone k orders mode) = .ok p) :
    Sim (evalSpline G C pts out k orders mode)
      (callFunction context (programA (callCfg G C pts.isRows out.isNone k orders mode) p) [.tup (G.map axisVal), .arr C, pv, outVal out]) Result := by
  have hd : 1 ≤ (callCfg G C pts.isRows out.isNone k orders mode).d := by
    show 1 ≤ G.length
    cases G with
    | nil => exact absurd rfl hG
    | cons => simp
  obtain ⟨b, hb, hpe⟩ := getCodeSpline_elim h
  have ho : ∀ os, (callCfg G C pts.isRows out.isNone k orders mode).orders = some os → os ≠ [] ∧ ∀ o ∈ os, o ≠ [] :=
    fun os e => genBasis_orders hb hd e
  have hbl := genBasis_blend hb
  have he : evalSpline G C pts out k orders mode = (do
      let prog ← getCodeSpline (callCfg G C pts.isRows out.isNone k orders mode)
      if ¬ allNamesAssigned prog then throw (.name "undefined global")
      if !returnsUnify prog then throw .typing
      match pts with
      | .point x => do
        let r ← run { grid := G, C := C, x := x, pre := [], npts := 0 } prog.prelude { out := out }
        pure { ret := match r.2 with
                      | .ret v => v
                      | _ => .none
               out := if out.isSome then r.1.out else none }
      | .rows xs => do
        let r ← run { grid := G, C := C, x := [], pre := [], npts := xs.length } prog.prelude
          { out := out }
        let s ← runRows G C xs.length prog.body 0 xs r.1
        if prog.retOut then do
          let A ← s.getOut
          pure { ret := .array A, out := none }
        else pure { ret := .none, out := s.out }) := rfl
  rw [he, h, ok_bind, encAxis_eq, encOut_eq]
  refine sim_checks (by rintro (h | h) <;> cases h) (by rintro (h | h) <;> cases h) ?_
  · cases hp with
    | tuple x hx =>
      have hpe := hpe.trans (if_neg (by simp [callCfg, Points.isRows]))
      refine sim_point (p := p) hK context_glob rfl (by rw [hpe]) hout ?_ ?_
      · rw [hpe]
        exact all_append.mpr ⟨all_append.mpr ⟨all_append.mpr ⟨all_append.mpr ⟨all_append.mpr ⟨fun st hst => plain_noCont ((alloc_good _).2 st hst).2,
          fun st hst => plain_noCont (recover_good (genRecover_is _ _ st hst)).2⟩, fun st hst => coord_noCont (genCoords_is _ _ st hst)⟩,
          fun st hst => plain_noCont (locate_good (genLocate_is _ st hst)).2⟩, fun st hst => plain_noCont (blend_good (hbl st hst)).2⟩,
          fun st hst => (reducePoint_good hd ho st hst).2⟩
      · rw [hpe]
        exact all_append.mpr ⟨all_append.mpr ⟨all_append.mpr ⟨all_append.mpr ⟨all_append.mpr ⟨fun st hst => allocPoint_fits rfl hst,
          fun st hst => recover_fits (genRecover_is _ _ st hst)⟩, fun st hst => coord_fits_point rfl (loads_tuple hx) (genCoords_is _ _ st hst)⟩,
          fun st hst => locate_fits (genLocate_is _ st hst)⟩, fun st hst => blend_fits (hbl st hst)⟩,
          fun st hst => reducePoint_fits (.inr ⟨rfl, rfl⟩) rfl hst⟩
    | vector x hx =>
      have hpe := hpe.trans (if_neg (by simp [callCfg, Points.isRows]))
      refine sim_point (p := p) hK context_glob rfl (by rw [hpe]) hout ?_ ?_
      · rw [hpe]
        exact all_append.mpr ⟨all_append.mpr ⟨all_append.mpr ⟨all_append.mpr ⟨all_append.mpr ⟨fun st hst => plain_noCont ((alloc_good _).2 st hst).2,
          fun st hst => plain_noCont (recover_good (genRecover_is _ _ st hst)).2⟩, fun st hst => coord_noCont (genCoords_is _ _ st hst)⟩,
          fun st hst => plain_noCont (locate_good (genLocate_is _ st hst)).2⟩, fun st hst => plain_noCont (blend_good (hbl st hst)).2⟩,
          fun st hst => (reducePoint_good hd ho st hst).2⟩
      · rw [hpe]
        exact all_append.mpr ⟨all_append.mpr ⟨all_append.mpr ⟨all_append.mpr ⟨all_append.mpr ⟨fun st hst => allocPoint_fits rfl hst,
          fun st hst => recover_fits (genRecover_is _ _ st hst)⟩, fun st hst => coord_fits_point rfl (loads_vec hx) (genCoords_is _ _ st hst)⟩,
          fun st hst => locate_fits (genLocate_is _ st hst)⟩, fun st hst => blend_fits (hbl st hst)⟩,
          fun st hst => reducePoint_fits (.inr ⟨rfl, rfl⟩) rfl hst⟩
    | matrix xs w P hd' hs hw hg =>
      have hpe := hpe.trans (if_pos (by simp [callCfg, Points.isRows]))
      refine sim_points (p := p) hK context_glob rfl hs hout ?_ ?_ ?_ ?_
      · rw [hpe]
        exact all_append.mpr ⟨fun st hst => ((alloc_good _).1 st hst).2, fun st hst => (recover_good (genRecover_is _ _ st hst)).2⟩
      · rw [hpe]
        exact all_append.mpr ⟨all_append.mpr ⟨all_append.mpr ⟨fun st hst => coord_noRet (genCoords_is _ _ st hst),
          fun st hst => plain_noRet (locate_good (genLocate_is _ st hst)).2⟩, fun st hst => plain_noRet (blend_good (hbl st hst)).2⟩,
          fun st hst => plain_noRet (reduceVec_good hd ho st hst).2⟩
      · rw [hpe]
        exact all_append.mpr ⟨fun st hst => allocVec_fits rfl rfl hs hst, fun st hst => recover_fits (genRecover_is _ _ st hst)⟩
      · intro j x hj
        rw [hpe]
        exact all_append.mpr ⟨all_append.mpr ⟨all_append.mpr ⟨fun st hst => coord_fits_rows rfl rfl (loads_row hd' hs hw hg hj) (genCoords_is _ _ st hst),
          fun st hst => locate_fits (genLocate_is _ st hst)⟩, fun st hst => blend_fits (hbl st hst)⟩,
          fun st hst => reduceVec_fits rfl (.inl ⟨rfl, j, rfl⟩) rfl hst⟩

end

end Interp.PyParse
