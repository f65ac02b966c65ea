import Verif.Proofs.SrcRun
import Verif.Model.BSplines

/-!
# The source texts of `basis_splines.py`
-/

namespace Interp.Spec.PySrc
open Interp Interp.BSplines

set_option linter.unusedSectionVars false

variable {K : Type} [Add K] [Sub K] [Mul K] [Div K] [Neg K] [Zero K] [One K] [NatCast K] [IntCast K]
  [LT K] [DecidableLT K] [LE K] [DecidableLE K] [BEq K] [IntFloor K] [Interp.Smolyak.Trig K]

/-- The program of `basis_splines.py`. -/
def bsplinesProg : Prog := ⟨[("B0", b0Fun), ("B", bFun)], [], [], .nil⟩

theorem bsplines_load : load [b0Text, bText] [] [] = some bsplinesProg := by
  simp [load, b0_parse, b_parse]
  rfl

theorem glob_B0 : (globalOf bsplinesProg "B0" : M K _) = pure (.fn b0Fun) := by
  simp [globalOf, find, bsplinesProg]
theorem glob_B : (globalOf bsplinesProg "B" : M K _) = pure (.fn bFun) := by
  simp [globalOf, find, bsplinesProg]

theorem item_flts (u : List K) (z : ℤ) : item (.list (u.map .flt)) [.at z] = lift ((pyIndex u z).map .flt) := by
  unfold item pyIndex nth
  simp only [List.length_map, List.getElem?_map]
  rcases wrapIndex u.length z with _ | j
  · rfl
  · simp only
    rcases u[j]? with _ | v <;> rfl

theorem b0_run (L : LitLaws K) (W : World K) (u : List K) (i : ℤ) (x : K) :
    runFun W b0Fun [.list (u.map .flt), .int i, .flt x] = lift ((B0 u i x).map .flt) := by
  rw [runFun]
  pysimp [b0Fun, b0Body, look, item_flts, B0, lift_bind, decimal, L.one, L.zero, Nat.cast_one]
  congr 1; funext a
  by_cases h1 : a ≤ x
  · pysimp [h1, decide_true, lift_bind]
    congr 1; funext b
    by_cases h2 : x < b
    · pysimp [h2, decide_true]
    · pysimp [h2, decide_false, Bool.false_eq_true]
  · pysimp [h1, decide_false, Bool.false_eq_true]

theorem b_run (L : LitLaws K) : ∀ (p n : ℕ) (u : List K) (i : ℤ) (x : K),
    runFun (world bsplinesProg (n + p + 1)) bFun [.int (p : ℤ), .list (u.map .flt), .int i, .flt x] = lift ((B p u i x).map .flt)
  | 0, n, u, i, x => by
    rw [runFun]
    pysimp [bFun, bBody, look, glob_B0, callN_fn, b0_run L, B, Nat.cast_zero, decide_true]
  | p + 1, n, u, i, x => by
    have h0 : ¬ ((p + 1 : ℕ) : ℤ) = ((0 : ℕ) : ℤ) := by omega
    have h1 : ((p + 1 : ℕ) : ℤ) - ((1 : ℕ) : ℤ) = (p : ℤ) := by omega
    have ih := fun (i : ℤ) => b_run L p n u i x
    have hp : bFun.params = [("p", none), ("u", none), ("i", none), ("x", none)] := rfl
    have hb : bFun.body = bBody := rfl
    rw [runFun, hp, hb]
    pysimp [bBody, look, h0, decide_false, Bool.false_eq_true, item_flts, h1, glob_B, callN_fn, B, lift_bind,
      ← Nat.add_assoc n p 1, ih]
    rcases pyIndex u i with e | a
    · rfl
    pysimp
    congr 1; funext b; congr 1; funext w; congr 1; funext v
    rw [show i + ((p + 1 : ℕ) : ℤ) + ((1 : ℕ) : ℤ) = i + ((p + 1 : ℕ) : ℤ) + 1 from rfl,
      show i + ((1 : ℕ) : ℤ) = i + 1 from rfl]
    rcases pyIndex u (i + ((p + 1 : ℕ) : ℤ) + 1) with e | c
    · rfl
    pysimp

/-- With a negative degree there is no result, however many calls are allowed. -/
theorem b_negative (L : LitLaws K) : ∀ (n : ℕ) (p : ℤ), p < 0 → ∀ (u : List K) (i : ℤ) (x : K) (h : Heap K),
    ∃ e, callN bsplinesProg n (.fn bFun) [.int p, .list (u.map .flt), .int i, .flt x] h = .error e
  | 0, p, hp, u, i, x, h => ⟨_, rfl⟩
  | n + 1, p, hp, u, i, x, h => by
    have h0 : ¬ p = ((0 : ℕ) : ℤ) := by omega
    have hq : bFun.params = [("p", none), ("u", none), ("i", none), ("x", none)] := rfl
    have hb : bFun.body = bBody := rfl
    obtain ⟨e, he⟩ := b_negative L n (p - ((1 : ℕ) : ℤ)) (by omega) u i x h
    rw [callN_fn, runFun, hq, hb]
    pysimp [bBody, look, h0, decide_false, Bool.false_eq_true, item_flts, glob_B]
    rcases pyIndex u i with e' | a
    · exact ⟨_, rfl⟩
    pysimp
    rcases pyIndex u (i + p) with e' | b
    · exact ⟨_, rfl⟩
    pysimp
    rcases pyDiv (x - a) (b - a) with e' | w
    · exact ⟨_, rfl⟩
    pysimp
    exact ⟨e, by rw [bind_run, he]; rfl⟩

end Interp.Spec.PySrc
