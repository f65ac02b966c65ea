import Verif.Proofs.SmolGrid

/-!
# Counting grid points
-/

namespace Interp.Smolyak
open Interp.Spec

/-- All vectors of `d` integers, at least one, of sum at most `d + m`. -/
def idxs : ℕ → ℕ → List (List ℤ)
  | 0, _ => [[]]
  | d + 1, m => (List.range (m + 1)).flatMap fun j => (idxs d (m - j)).map (((j + 1 : ℕ) : ℤ) :: ·)

theorem mem_idxs : ∀ (d m : ℕ) (el : List ℤ), el ∈ idxs d m ↔
    el.length = d ∧ (∀ e ∈ el, 1 ≤ e) ∧ el.sum ≤ d + m
  | 0, m, el => by
    rw [idxs, List.mem_singleton]
    constructor
    · rintro rfl; simp
    · rintro ⟨h, _⟩; exact List.length_eq_zero_iff.mp h
  | d + 1, m, el => by
    rw [idxs, List.mem_flatMap]
    constructor
    · rintro ⟨j, hj, h⟩
      rw [List.mem_map] at h
      obtain ⟨l, hl, rfl⟩ := h
      obtain ⟨h1, h2, h3⟩ := (mem_idxs d (m - j) l).mp hl
      have := List.mem_range.mp hj
      refine ⟨by simp [h1], ?_, ?_⟩
      · intro e he
        rcases List.mem_cons.mp he with rfl | he
        · omega
        · exact h2 e he
      · rw [List.sum_cons]; push_cast; omega
    · rintro ⟨h1, h2, h3⟩
      cases el with
      | nil => simp at h1
      | cons e l =>
        have he := h2 e (by simp)
        have hl := sum_ge_length l fun e' h' => h2 e' (by simp [h'])
        have hll : l.length = d := by simpa using h1
        rw [List.sum_cons] at h3
        push_cast at h3
        refine ⟨(e - 1).toNat, List.mem_range.mpr (by omega), List.mem_map.mpr ⟨l, ?_, ?_⟩⟩
        · exact (mem_idxs d _ l).mpr ⟨hll, fun e' h' => h2 e' (by simp [h']), by omega⟩
        · congr 1; omega

theorem nodup_idxs : ∀ d m : ℕ, (idxs d m).Nodup
  | 0, m => by simp [idxs]
  | d + 1, m => by
    rw [idxs, List.nodup_flatMap]
    refine ⟨fun j _ => (nodup_idxs d (m - j)).map fun a b e => (List.cons.inj e).2, ?_⟩
    refine List.Pairwise.imp ?_ List.nodup_range
    intro a b hab x hx hx'
    rw [List.mem_map] at hx hx'
    obtain ⟨y, _, rfl⟩ := hx
    obtain ⟨z, _, e⟩ := hx'
    have := (List.cons.inj e).1
    omega

/-- Number of new nodes at a level. -/
def sz (e : ℤ) : ℕ := mSize e.toNat - mSize (e.toNat - 1)

/-- Number of grid points. -/
def cnt (d m : ℕ) : ℕ := ((idxs d m).map fun el => (el.map sz).prod).sum

theorem cnt_zero (m : ℕ) : cnt 0 m = 1 := by simp [cnt, idxs]

theorem cnt_succ (d m : ℕ) : cnt (d + 1) m
    = ((List.range (m + 1)).map fun j => sz ((j + 1 : ℕ) : ℤ) * cnt d (m - j)).sum := by
  rw [cnt, idxs, List.map_flatMap, List.flatMap_def, List.sum_flatten, List.map_map]
  congr 1
  refine List.map_congr_left fun j _ => ?_
  simp only [Function.comp, List.map_map, cnt]
  rw [← List.sum_map_mul_left]
  simp [Function.comp_def]

theorem gridRows_count {d : ℕ} {m : ℕ} {inds : List (List ℤ)} (h : IndsOK d (.iso m) m inds) :
    (gridRows inds).length = cnt d m := by
  have hp : inds.Perm (idxs d m) := by
    rw [List.perm_ext_iff_of_nodup h.nodup (nodup_idxs d m)]
    intro el
    rw [h.mem, mem_idxs]
    rfl
  rw [gridRows, List.length_flatMap, cnt]
  rw [← (hp.map fun el => (el.map sz).prod).sum_eq]
  congr 1
  refine List.map_congr_left fun el hel => ?_
  rw [length_iterProduct, List.map_map]
  congr 1
  refine List.map_congr_left fun e he => ?_
  have := (h.entry hel).2 e he
  show (aLevel e.toNat).length = _
  rw [aLevel_length _ (by omega)]
  rfl

theorem sz1 : sz ((0 + 1 : ℕ) : ℤ) = 1 := by simp [sz, mSize]
theorem sz2 : sz ((1 + 1 : ℕ) : ℤ) = 2 := by simp [sz, mSize]
theorem sz3 : sz ((2 + 1 : ℕ) : ℤ) = 2 := by
  show mSize 3 - mSize 2 = 2
  simp [mSize]
theorem sz4 : sz ((3 + 1 : ℕ) : ℤ) = 4 := by
  show mSize 4 - mSize 3 = 4
  simp [mSize]

theorem cnt0 : ∀ d, cnt d 0 = 1
  | 0 => cnt_zero 0
  | d + 1 => by rw [cnt_succ]; simp [sz, mSize, cnt0 d]

theorem cnt1 : ∀ d, cnt d 1 = 2 * d + 1
  | 0 => cnt_zero 1
  | d + 1 => by
    rw [cnt_succ]
    simp only [List.range_succ, List.range_zero, List.nil_append, List.cons_append, List.map_cons, List.map_nil,
      List.sum_cons, List.sum_nil, sz1, sz2, Nat.sub_zero, Nat.sub_self, cnt0, cnt1 d]
    ring

theorem cnt2 : ∀ d, (cnt d 2 : ℚ) = 1 + 4 * d + 2 * d * (d - 1)
  | 0 => by rw [cnt_zero]; norm_num
  | d + 1 => by
    rw [cnt_succ]
    simp only [List.range_succ, List.range_zero, List.nil_append, List.cons_append, List.map_cons, List.map_nil,
      List.sum_cons, List.sum_nil, sz1, sz2, sz3, Nat.sub_zero, Nat.sub_self, cnt0, cnt1 d,
      show 2 - 1 = 1 from rfl]
    push_cast
    rw [cnt2 d]
    ring

theorem cnt3 : ∀ d, (cnt d 3 : ℚ) = 1 + 8 * d + 6 * d * (d - 1) + 4 / 3 * d * (d - 1) * (d - 2)
  | 0 => by rw [cnt_zero]; norm_num
  | d + 1 => by
    rw [cnt_succ]
    simp only [List.range_succ, List.range_zero, List.nil_append, List.cons_append, List.map_cons, List.map_nil,
      List.sum_cons, List.sum_nil, sz1, sz2, sz3, sz4, Nat.sub_zero, Nat.sub_self, cnt0, cnt1 d,
      show 3 - 1 = 2 from rfl, show 3 - 2 = 1 from rfl]
    push_cast
    rw [cnt3 d, cnt2 d]
    ring

end Interp.Smolyak
