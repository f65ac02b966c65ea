import Verif.Spec.FilterRef
import Verif.Proofs.ExceptLemmas
import Mathlib.Tactic.Ring

/-! The solver along one line computes its closed form, in any arithmetic. -/

set_option linter.unusedSectionVars false
set_option linter.unusedSimpArgs false

namespace Interp.Filter
open Interp.FilterRef

variable {K : Type}

/-! ### Two dimensional arrays -/

/-- Functional update. -/
def W (b : NdArray K) (i j : ℕ) (v : K) : NdArray K :=
  { b with get := fun k => if k = [i, j] then v else b.get k }

@[simp] theorem W_shape (b : NdArray K) (i j : ℕ) (v : K) : (W b i j v).shape = b.shape := rfl

theorem W_get (b : NdArray K) (i j i' j' : ℕ) (v : K) :
    (W b i j v).get [i', j'] = if i' = i ∧ j' = j then v else b.get [i', j'] := by
  simp [W]

theorem wrap2 {N : ℕ} {i j : ℤ} (hi : 0 ≤ i ∧ i < N) (hj : 0 ≤ j ∧ j < 4) :
    wrapIndices [N, 4] [i, j] = some [i.toNat, j.toNat] := by
  have h1 := wrapIndex_of_lt hi.1 hi.2
  have h2 : wrapIndex 4 j = some j.toNat := wrapIndex_of_lt hj.1 (by exact_mod_cast hj.2)
  simp [wrapIndices, h1, h2]

theorem read2 {b : NdArray K} {N : ℕ} (hs : b.shape = [N, 4]) {i j : ℤ} (hi : 0 ≤ i ∧ i < N)
    (hj : 0 ≤ j ∧ j < 4) : b.read [i, j] = .ok (b.get [i.toNat, j.toNat]) := by
  simp [NdArray.read, hs, wrap2 hi hj]

theorem write2 {b : NdArray K} {N : ℕ} (hs : b.shape = [N, 4]) {i j : ℤ} (hi : 0 ≤ i ∧ i < N)
    (hj : 0 ≤ j ∧ j < 4) (v : K) : b.write [i, j] v = .ok (W b i.toNat j.toNat v) := by
  simp [NdArray.write, hs, wrap2 hi hj, W]

variable [Add K] [Sub K] [Mul K] [Div K] [Neg K] [Zero K] [One K] [NatCast K]
  [IntCast K] [LT K] [DecidableLT K] [BEq K]

theorem divBy_ok {b : NdArray K} {N : ℕ} (hs : b.shape = [N, 4]) {i j r c : ℤ}
    (hi : 0 ≤ i ∧ i < N) (hj : 0 ≤ j ∧ j < 4) (hr : 0 ≤ r ∧ r < N) (hc : 0 ≤ c ∧ c < 4)
    (h0 : (b.get [r.toNat, c.toNat] == 0) = false) :
    divBy b i j r c = .ok (W b i.toNat j.toNat
      (b.get [i.toNat, j.toNat] / b.get [r.toNat, c.toNat])) := by
  simp [divBy, NdArray.modify, read2 hs hr hc, read2 hs hi hj, write2 hs hi hj, pyDiv, h0]

theorem subMul_ok {b : NdArray K} {N : ℕ} (hs : b.shape = [N, 4]) {i j r c s e : ℤ}
    (hi : 0 ≤ i ∧ i < N) (hj : 0 ≤ j ∧ j < 4) (hr : 0 ≤ r ∧ r < N) (hc : 0 ≤ c ∧ c < 4)
    (hs' : 0 ≤ s ∧ s < N) (he : 0 ≤ e ∧ e < 4) :
    subMul b i j r c s e = .ok (W b i.toNat j.toNat
      (b.get [i.toNat, j.toNat] - b.get [r.toNat, c.toNat] * b.get [s.toNat, e.toNat])) := by
  simp [subMul, NdArray.modify, read2 hs hr hc, read2 hs hi hj, write2 hs hi hj, read2 hs hs' he]

/-- The first two rows. -/
theorem elimHead_ok {b : NdArray K} {N : ℕ} (hs : b.shape = [N, 4]) (hN : 2 ≤ N)
    (h00 : (b.get [0, 0] == 0) = false)
    (h11 : (b.get [1, 1] - b.get [1, 0] * (b.get [0, 1] / b.get [0, 0]) == 0) = false) :
    ∃ b', elimHead b = .ok b' ∧ b'.shape = [N, 4] ∧
      b'.get [0, 1] = b.get [0, 1] / b.get [0, 0] ∧
      b'.get [0, 2] = b.get [0, 2] / b.get [0, 0] ∧
      b'.get [0, 3] = b.get [0, 3] / b.get [0, 0] ∧
      b'.get [1, 2] = (b.get [1, 2] - b.get [1, 0] * (b.get [0, 2] / b.get [0, 0])) /
        (b.get [1, 1] - b.get [1, 0] * (b.get [0, 1] / b.get [0, 0])) ∧
      b'.get [1, 3] = (b.get [1, 3] - b.get [1, 0] * (b.get [0, 3] / b.get [0, 0])) /
        (b.get [1, 1] - b.get [1, 0] * (b.get [0, 1] / b.get [0, 0])) ∧
      ∀ i j, 2 ≤ i → b'.get [i, j] = b.get [i, j] := by
  unfold elimHead
  have z : (0 : ℤ) ≤ 0 ∧ (0 : ℤ) < N := by omega
  have o : (0 : ℤ) ≤ 1 ∧ (1 : ℤ) < N := by omega
  have c0 : (0 : ℤ) ≤ 0 ∧ (0 : ℤ) < 4 := by omega
  have c1 : (0 : ℤ) ≤ 1 ∧ (1 : ℤ) < 4 := by omega
  have c2 : (0 : ℤ) ≤ 2 ∧ (2 : ℤ) < 4 := by omega
  have c3 : (0 : ℤ) ≤ 3 ∧ (3 : ℤ) < 4 := by omega
  have t0 : Int.toNat 0 = 0 := rfl
  have t1 : Int.toNat 1 = 1 := rfl
  have t2 : Int.toNat 2 = 2 := rfl
  have t3 : Int.toNat 3 = 3 := rfl
  rw [divBy_ok hs z c1 z c0 (by simpa [t0] using h00), ok_bind,
    divBy_ok (by simpa using hs) z c2 z c0 (by simpa [t0, t1, t2, t3, W_get] using h00), ok_bind,
    divBy_ok (by simpa using hs) z c3 z c0 (by simpa [t0, t1, t2, t3, W_get] using h00), ok_bind,
    write2 (by simpa using hs) z c0, ok_bind,
    subMul_ok (by simpa using hs) o c1 o c0 z c1, ok_bind,
    subMul_ok (by simpa using hs) o c2 o c0 z c2, ok_bind,
    subMul_ok (by simpa using hs) o c3 o c0 z c3, ok_bind,
    write2 (by simpa using hs) z c0, ok_bind,
    divBy_ok (by simpa using hs) o c2 o c1 (by simpa [t0, t1, t2, t3, W_get] using h11), ok_bind,
    divBy_ok (by simpa using hs) o c3 o c1 (by simpa [t0, t1, t2, t3, W_get] using h11), ok_bind,
    write2 (by simpa using hs) o c1]
  refine ⟨_, rfl, by simpa using hs, ?_⟩
  simp only [t0, t1, t2, t3, W_get]
  simp
  intro i j hi
  have : i ≠ 0 := by omega
  have : i ≠ 1 := by omega
  simp [*]

/-- One interior row. -/
theorem elimRow_ok {b : NdArray K} {N r : ℕ} (hs : b.shape = [N, 4]) (hr : r + 1 < N)
    (hp : (b.get [r + 1, 1] - b.get [r + 1, 0] * b.get [r, 2] == 0) = false) :
    ∃ b', elimRow ((r + 1 : ℕ) : ℤ) b = .ok b' ∧ b'.shape = [N, 4] ∧
      b'.get [r + 1, 2] = b.get [r + 1, 2] /
        (b.get [r + 1, 1] - b.get [r + 1, 0] * b.get [r, 2]) ∧
      b'.get [r + 1, 3] = (b.get [r + 1, 3] - b.get [r + 1, 0] * b.get [r, 3]) /
        (b.get [r + 1, 1] - b.get [r + 1, 0] * b.get [r, 2]) ∧
      ∀ i j, i ≠ r + 1 → b'.get [i, j] = b.get [i, j] := by
  unfold elimRow
  have z : (0 : ℤ) ≤ ((r + 1 : ℕ) : ℤ) ∧ ((r + 1 : ℕ) : ℤ) < N := by omega
  have o : (0 : ℤ) ≤ ((r + 1 : ℕ) : ℤ) - 1 ∧ ((r + 1 : ℕ) : ℤ) - 1 < N := by omega
  have c0 : (0 : ℤ) ≤ 0 ∧ (0 : ℤ) < 4 := by omega
  have c1 : (0 : ℤ) ≤ 1 ∧ (1 : ℤ) < 4 := by omega
  have c2 : (0 : ℤ) ≤ 2 ∧ (2 : ℤ) < 4 := by omega
  have c3 : (0 : ℤ) ≤ 3 ∧ (3 : ℤ) < 4 := by omega
  have t0 : Int.toNat 0 = 0 := rfl
  have t1 : Int.toNat 1 = 1 := rfl
  have t2 : Int.toNat 2 = 2 := rfl
  have t3 : Int.toNat 3 = 3 := rfl
  have tr : (((r + 1 : ℕ) : ℤ)).toNat = r + 1 := by omega
  have tr' : (((r + 1 : ℕ) : ℤ) - 1).toNat = r := by omega
  have ne1 : r ≠ r + 1 := by omega
  rw [subMul_ok hs z c1 z c0 o c2, ok_bind,
    subMul_ok (by simpa using hs) z c3 z c0 o c3, ok_bind,
    divBy_ok (by simpa using hs) z c2 z c1
      (by simpa [tr, tr', t0, t1, t2, t3, W_get] using hp), ok_bind,
    divBy_ok (by simpa using hs) z c3 z c1
      (by simpa [tr, tr', t0, t1, t2, t3, W_get] using hp), ok_bind,
    write2 (by simpa using hs) z c0, ok_bind, write2 (by simpa using hs) z c1]
  refine ⟨_, rfl, by simpa using hs, ?_⟩
  simp only [tr, tr', t0, t1, t2, t3, W_get]
  simp
  intro i j hi
  simp [hi]

/-- The last row, number `m + 1`. -/
theorem elimLast_ok {b : NdArray K} {m : ℕ} (hs : b.shape = [m + 2, 4]) (hm : 2 ≤ m)
    (hp : (b.get [m + 1, 2] - (b.get [m + 1, 1] - b.get [m + 1, 0] * b.get [m - 1, 2])
      * b.get [m, 2] == 0) = false) :
    ∃ b', elimLast (m : ℤ) b = .ok b' ∧ b'.shape = [m + 2, 4] ∧
      b'.get [m + 1, 3] = (b.get [m + 1, 3] - b.get [m + 1, 0] * b.get [m - 1, 3]
          - (b.get [m + 1, 1] - b.get [m + 1, 0] * b.get [m - 1, 2]) * b.get [m, 3]) /
        (b.get [m + 1, 2] - (b.get [m + 1, 1] - b.get [m + 1, 0] * b.get [m - 1, 2])
          * b.get [m, 2]) ∧
      ∀ i j, i ≠ m + 1 → b'.get [i, j] = b.get [i, j] := by
  unfold elimLast
  have z : (0 : ℤ) ≤ (m : ℤ) + 1 ∧ (m : ℤ) + 1 < (m + 2 : ℕ) := by omega
  have o : (0 : ℤ) ≤ (m : ℤ) - 1 ∧ (m : ℤ) - 1 < (m + 2 : ℕ) := by omega
  have p : (0 : ℤ) ≤ (m : ℤ) ∧ (m : ℤ) < (m + 2 : ℕ) := by omega
  have c0 : (0 : ℤ) ≤ 0 ∧ (0 : ℤ) < 4 := by omega
  have c1 : (0 : ℤ) ≤ 1 ∧ (1 : ℤ) < 4 := by omega
  have c2 : (0 : ℤ) ≤ 2 ∧ (2 : ℤ) < 4 := by omega
  have c3 : (0 : ℤ) ≤ 3 ∧ (3 : ℤ) < 4 := by omega
  have t0 : Int.toNat 0 = 0 := rfl
  have t1 : Int.toNat 1 = 1 := rfl
  have t2 : Int.toNat 2 = 2 := rfl
  have t3 : Int.toNat 3 = 3 := rfl
  have tr : ((m : ℤ) + 1).toNat = m + 1 := by omega
  have tr' : ((m : ℤ) - 1).toNat = m - 1 := by omega
  have tm : ((m : ℤ)).toNat = m := by omega
  have ne1 : m - 1 ≠ m + 1 := by omega
  have ne2 : m ≠ m + 1 := by omega
  rw [subMul_ok hs z c1 z c0 o c2, ok_bind,
    subMul_ok (by simpa using hs) z c3 z c0 o c3, ok_bind,
    subMul_ok (by simpa using hs) z c2 z c1 p c2, ok_bind,
    subMul_ok (by simpa using hs) z c3 z c1 p c3, ok_bind,
    divBy_ok (by simpa using hs) z c3 z c2
      (by simpa [tr, tr', tm, t0, t1, t2, t3, W_get, ne1, ne2] using hp), ok_bind,
    write2 (by simpa using hs) z c2]
  refine ⟨_, rfl, by simpa using hs, ?_⟩
  simp only [tr, tr', tm, t0, t1, t2, t3, W_get]
  simp [ne1, ne2]
  intro i j hi
  simp [hi]

/-- Bands as filled by `find_coefs_1d`. -/
def Filled (δ : K) (m : ℕ) (data : ℕ → K) (b : NdArray K) : Prop :=
  b.shape = [m + 2, 4] ∧
  (b.get [0, 0] = fA δ ∧ b.get [0, 1] = fB δ ∧ b.get [0, 2] = fA δ ∧ b.get [0, 3] = 0) ∧
  (b.get [m + 1, 0] = fA δ ∧ b.get [m + 1, 1] = fB δ ∧ b.get [m + 1, 2] = fA δ ∧
    b.get [m + 1, 3] = 0) ∧
  ∀ i < m, b.get [i + 1, 0] = β0 ∧ b.get [i + 1, 1] = β1 ∧ b.get [i + 1, 2] = β0 ∧
    b.get [i + 1, 3] = data i

/-- State of the bands after the elimination of rows `0..k`. -/
def Elim (δ : K) (m : ℕ) (data : ℕ → K) (k : ℕ) (b : NdArray K) : Prop :=
  b.shape = [m + 2, 4] ∧
  (b.get [0, 1] = u1 δ ∧ b.get [0, 2] = u2 δ ∧ b.get [0, 3] = u3 δ) ∧
  (∀ r < k, b.get [r + 1, 2] = q δ r ∧ b.get [r + 1, 3] = rhs δ data r) ∧
  (∀ i, k ≤ i → i < m → b.get [i + 1, 0] = β0 ∧ b.get [i + 1, 1] = β1 ∧ b.get [i + 1, 2] = β0 ∧
    b.get [i + 1, 3] = data i) ∧
  (b.get [m + 1, 0] = fA δ ∧ b.get [m + 1, 1] = fB δ ∧ b.get [m + 1, 2] = fA δ ∧
    b.get [m + 1, 3] = 0)

theorem elim_head {δ : K} {m : ℕ} {data : ℕ → K} {b : NdArray K} (hm : 2 ≤ m)
    (hp : NoZeroPivot δ m) (h : Filled δ m data b) :
    ∃ b', elimHead b = .ok b' ∧ Elim δ m data 1 b' := by
  obtain ⟨hs, ⟨h00, h01, h02, h03⟩, hlast, hrow⟩ := h
  obtain ⟨h10, h11, h12, h13⟩ := hrow 0 (by omega)
  simp only [Nat.zero_add] at h10 h11 h12 h13
  have hp0 := hp.2.1 0 (by omega)
  obtain ⟨b', e, s, a1, a2, a3, a4, a5, a6⟩ := elimHead_ok hs (by omega)
    (by rw [h00]; exact hp.1) (by rw [h11, h10, h01, h00]; exact hp0)
  refine ⟨b', e, s, ⟨?_, ?_, ?_⟩, ?_, ?_, ?_⟩
  · rw [a1, h01, h00]; rfl
  · rw [a2, h02, h00]; rfl
  · rw [a3, h03, h00]; rfl
  · intro r hr
    obtain rfl : r = 0 := by omega
    simp only [Nat.zero_add]
    rw [a4, a5, h12, h10, h02, h00, h11, h01, h13, h03]
    exact ⟨rfl, rfl⟩
  · intro i h1 h2
    simp only [a6 (i + 1) _ (by omega)]
    exact hrow i h2
  · simp only [a6 (m + 1) _ (by omega)]
    exact hlast

theorem elim_row {δ : K} {m : ℕ} {data : ℕ → K} {b : NdArray K} {k : ℕ} (hk : 1 ≤ k) (hkm : k < m)
    (hp : NoZeroPivot δ m) (h : Elim δ m data k b) :
    ∃ b', elimRow ((k + 1 : ℕ) : ℤ) b = .ok b' ∧ Elim δ m data (k + 1) b' := by
  obtain ⟨hs, h0, hdone, hrow, hlast⟩ := h
  obtain ⟨j, rfl⟩ : ∃ j, k = j + 1 := ⟨k - 1, by omega⟩
  obtain ⟨p2, p3⟩ := hdone j (by omega)
  obtain ⟨r0, r1, r2, r3⟩ := hrow (j + 1) le_rfl hkm
  have hpk := hp.2.1 (j + 1) hkm
  obtain ⟨b', e, s, a2, a3, a6⟩ := elimRow_ok hs (r := j + 1) (by omega)
    (by rw [r1, r0, p2]; exact hpk)
  refine ⟨b', e, s, ?_, ?_, ?_, ?_⟩
  · simp only [a6 0 _ (by omega)]; exact h0
  · intro r hr
    rcases Nat.lt_or_eq_of_le (Nat.le_of_lt_succ hr) with hlt | rfl
    · simp only [a6 (r + 1) _ (by omega)]; exact hdone r hlt
    · rw [a2, a3, r2, r1, r0, p2, r3, p3]; exact ⟨rfl, rfl⟩
  · intro i h1 h2
    simp only [a6 (i + 1) _ (by omega)]
    exact hrow i (by omega) h2
  · simp only [a6 (m + 1) _ (by omega)]
    exact hlast

theorem pyFor_nil {α S : Type} (body : α → S → Py S) (s : S) : pyFor [] body s = .ok s := rfl

theorem pyFor_cons {α S : Type} (a : α) (l : List α) (body : α → S → Py S) (s : S) :
    pyFor (a :: l) body s = (body a s >>= fun s => pyFor l body s) := rfl

theorem pyFor_append {α S : Type} (l l' : List α) (body : α → S → Py S) (s : S) :
    pyFor (l ++ l') body s = (pyFor l body s >>= pyFor l' body) := by
  simp only [pyFor, List.foldlM_append]
  rfl

/-- A loop with an invariant indexed by the number of passes. -/
theorem pyFor_range {S : Type} (n : ℕ) (f : ℕ → S → Py S) (P : ℕ → S → Prop) (s : S) (h0 : P 0 s)
    (hstep : ∀ i < n, ∀ s, P i s → ∃ s', f i s = .ok s' ∧ P (i + 1) s') :
    ∃ s', pyFor (List.range n) f s = .ok s' ∧ P n s' := by
  induction n with
  | zero => exact ⟨s, rfl, h0⟩
  | succ n ih =>
    obtain ⟨s1, e1, p1⟩ := ih (fun i hi => hstep i (by omega))
    obtain ⟨s2, e2, p2⟩ := hstep n (by omega) s1 p1
    refine ⟨s2, ?_, p2⟩
    rw [List.range_succ, pyFor_append, e1, ok_bind, pyFor_cons, e2]; rfl

theorem pyFor_map {α β S : Type} (l : List α) (g : α → β) (f : β → S → Py S) (s : S) :
    pyFor (l.map g) f s = pyFor l (fun a => f (g a)) s := by
  simp [pyFor, List.foldlM_map]

theorem elim_ok {δ : K} {m : ℕ} {data : ℕ → K} {b : NdArray K} (hm : 2 ≤ m)
    (hp : NoZeroPivot δ m) (h : Filled δ m data b) :
    ∃ b', (elimHead b >>= fun b => pyFor (rangeZ 2 ((m : ℤ) + 1)) elimRow b) = .ok b' ∧
      Elim δ m data m b' := by
  obtain ⟨b1, e1, h1⟩ := elim_head hm hp h
  rw [e1, ok_bind, rangeZ, pyFor_map]
  have hn : ((m : ℤ) + 1 - 2).toNat = m - 1 := by omega
  rw [hn]
  obtain ⟨b2, e2, h2⟩ := pyFor_range (m - 1) (fun i => elimRow (2 + Int.ofNat i) (K := K))
    (fun i b => Elim δ m data (i + 1) b) b1 h1 (by
      intro i hi s hs
      have := elim_row (k := i + 1) (by omega) (by omega) hp hs
      have e : (2 + Int.ofNat i : ℤ) = ((i + 1 + 1 : ℕ) : ℤ) := by
        rw [Int.ofNat_eq_natCast]; push_cast; ring
      simp only [e]
      exact this)
  refine ⟨b2, e2, ?_⟩
  rw [show m - 1 + 1 = m by omega] at h2
  exact h2

theorem elim_last {δ : K} {m : ℕ} {data : ℕ → K} {b : NdArray K} (hm : 2 ≤ m)
    (hp : NoZeroPivot δ m) (h : Elim δ m data m b) :
    ∃ b', elimLast (m : ℤ) b = .ok b' ∧ b'.shape = [m + 2, 4] ∧
      b'.get [m + 1, 3] = top δ m data ∧
      (∀ r < m, b'.get [r + 1, 2] = q δ r ∧ b'.get [r + 1, 3] = rhs δ data r) ∧
      (b'.get [0, 1] = u1 δ ∧ b'.get [0, 2] = u2 δ ∧ b'.get [0, 3] = u3 δ) := by
  obtain ⟨hs, h0, hdone, -, l0, l1', l2', l3⟩ := h
  obtain ⟨p2, p3⟩ := hdone (m - 2) (by omega)
  obtain ⟨r2, r3⟩ := hdone (m - 1) (by omega)
  rw [show m - 2 + 1 = m - 1 by omega] at p2 p3
  rw [show m - 1 + 1 = m by omega] at r2 r3
  obtain ⟨b', e, s, a3, a6⟩ := elimLast_ok hs hm (by rw [l2', l1', l0, p2, r2]; exact hp.2.2)
  refine ⟨b', e, s, ?_, ?_, ?_⟩
  · rw [a3, l3, l0, p3, l1', p2, r3, l2', r2]; rfl
  · intro r hr
    simp only [a6 (r + 1) _ (by omega)]
    exact hdone r hr
  · simp only [a6 0 _ (by omega)]
    exact h0

/-! ### Views -/

/-- `l` is a legal view of length `N` of an array of this shape. -/
def LineOk (sh : List ℕ) (l : Line) (N : ℕ) : Prop :=
  ∃ s1 s2, sh = s1 ++ N :: s2 ∧ InShape s1 l.pre ∧ InShape s2 l.post

/-- Index of an entry of the view. -/
def Line.nat (l : Line) (i : ℕ) : List ℕ := l.pre ++ i :: l.post

theorem LineOk.inShape {sh : List ℕ} {l : Line} {N : ℕ} (h : LineOk sh l N) {i : ℕ} (hi : i < N) :
    InShape sh (Line.nat l i) := by
  obtain ⟨s1, s2, rfl, h1, h2⟩ := h
  exact inShape_append h1 ⟨hi, h2⟩

theorem LineOk.len {C : NdArray K} {l : Line} {N : ℕ} (h : LineOk C.shape l N) : l.len C = N := by
  obtain ⟨s1, s2, e, h1, h2⟩ := h
  have := inShape_length h1
  simp [Line.len, e, this]

theorem pos_nat (l : Line) (i : ℕ) : l.pos (i : ℤ) = (Line.nat l i).map Int.ofNat := by
  simp [Line.pos, Line.nat]

theorem readLine {C : NdArray K} {l : Line} {N i : ℕ} (h : LineOk C.shape l N) (hi : i < N) :
    C.read (l.pos (i : ℤ)) = .ok (C.get (Line.nat l i)) := by
  rw [pos_nat, NdArray.read, wrapIndices_ok _ rfl (h.inShape hi)]; rfl

/-- Update of one entry. -/
def U (C : NdArray K) (k : List ℕ) (v : K) : NdArray K :=
  { C with get := fun k' => if k' = k then v else C.get k' }

theorem writeLine {C : NdArray K} {l : Line} {N i : ℕ} (h : LineOk C.shape l N) (hi : i < N)
    (v : K) : C.write (l.pos (i : ℤ)) v = .ok (U C (Line.nat l i) v) := by
  rw [pos_nat, NdArray.write, wrapIndices_ok _ rfl (h.inShape hi)]; rfl

theorem Line.nat_inj {l : Line} {i j : ℕ} : Line.nat l i = Line.nat l j ↔ i = j := by
  simp [Line.nat]

/-- `C'` is `C` with the line `l` replaced by `f`. -/
def LineSet (C : NdArray K) (l : Line) (N : ℕ) (f : ℕ → K) (C' : NdArray K) : Prop :=
  C'.shape = C.shape ∧ (∀ i < N, C'.get (Line.nat l i) = f i) ∧
    ∀ idx, (∀ i < N, idx ≠ Line.nat l i) → C'.get idx = C.get idx

theorem back_ok {δ : K} {m : ℕ} {data : ℕ → K} {b C : NdArray K} {l : Line} (hm : 2 ≤ m)
    (hs : b.shape = [m + 2, 4]) (htop : b.get [m + 1, 3] = top δ m data)
    (hrow : ∀ r < m, b.get [r + 1, 2] = q δ r ∧ b.get [r + 1, 3] = rhs δ data r)
    (h0 : b.get [0, 1] = u1 δ ∧ b.get [0, 2] = u2 δ ∧ b.get [0, 3] = u3 δ)
    (hl : LineOk C.shape l (m + 2)) :
    ∃ C', (do
      let v ← b.read [(m : ℤ) + 1, 3]
      let C ← C.write (l.pos ((m : ℤ) + 1)) v
      let C ← pyFor (rangeDownZ (m : ℤ) 0) (backRow b l) C
      backFirst b l C) = .ok C' ∧ LineSet C l (m + 2) (solve δ m data) C' := by
  have t3 : Int.toNat 3 = 3 := rfl
  have t2 : Int.toNat 2 = 2 := rfl
  have tm : ((m : ℤ) + 1).toNat = m + 1 := by omega
  rw [read2 hs (i := (m : ℤ) + 1) (j := 3) (by omega) (by omega), ok_bind, tm, t3, htop,
    show ((m : ℤ) + 1) = ((m + 1 : ℕ) : ℤ) by push_cast; rfl, writeLine hl (by omega), ok_bind]
  -- invariant after `k` passes
  let P : ℕ → NdArray K → Prop := fun k C' => C'.shape = C.shape ∧
    (∀ j ≤ k, C'.get (Line.nat l (m + 1 - j)) = bk δ m data j) ∧
    ∀ idx, (∀ i < m + 2, idx ≠ Line.nat l i) → C'.get idx = C.get idx
  have hP0 : P 0 (U C (Line.nat l (m + 1)) (top δ m data)) := by
    refine ⟨rfl, ?_, ?_⟩
    · intro j hj
      obtain rfl : j = 0 := by omega
      simp [U, bk]
    · intro idx hidx
      simp only [U]
      rw [if_neg (hidx (m + 1) (by omega))]
  have hn : ((m : ℤ) - 0).toNat = m := by omega
  rw [rangeDownZ, pyFor_map, hn]
  obtain ⟨C1, e1, hs1, hb1, ho1⟩ := pyFor_range m (fun i => backRow b l ((m : ℤ) - Int.ofNat i)) P _ hP0 (by
    intro k hk C1 ⟨hs1, hb1, ho1⟩
    have e : ((m : ℤ) - Int.ofNat k) = ((m - k : ℕ) : ℤ) := by
      rw [Int.ofNat_eq_natCast]; omega
    have e' : (((m - k : ℕ) : ℤ) + 1) = ((m - k + 1 : ℕ) : ℤ) := by push_cast; rfl
    have hl1 : LineOk C1.shape l (m + 2) := by rw [hs1]; exact hl
    have tk : ((m - k : ℕ) : ℤ).toNat = m - k := by omega
    rw [e, backRow, read2 hs (i := ((m - k : ℕ) : ℤ)) (j := 3) (by omega) (by omega), ok_bind,
      read2 hs (i := ((m - k : ℕ) : ℤ)) (j := 2) (by omega) (by omega), ok_bind, e',
      readLine hl1 (by omega), ok_bind, writeLine hl1 (by omega), tk, t3, t2]
    refine ⟨_, rfl, hs1, ?_, ?_⟩
    · intro j hj
      rcases Nat.lt_or_eq_of_le hj with hlt | rfl
      · simp only [U, Line.nat_inj]
        rw [if_neg (by omega)]
        exact hb1 j (by omega)
      · simp only [U, Line.nat_inj]
        rw [if_pos (by omega), show m - k + 1 = m + 1 - k by omega, hb1 k le_rfl]
        obtain ⟨r2, r3⟩ := hrow (m - 1 - k) (by omega)
        rw [show m - 1 - k + 1 = m - k by omega] at r2 r3
        rw [r2, r3]; rfl
    · intro idx hidx
      simp only [U]
      rw [if_neg (hidx _ (by omega))]
      exact ho1 idx hidx)
  rw [e1, ok_bind]
  have hl1 : LineOk C1.shape l (m + 2) := by rw [hs1]; exact hl
  have t0 : Int.toNat 0 = 0 := rfl
  have t1 : Int.toNat 1 = 1 := rfl
  have f1 := readLine hl1 (i := 1) (by omega)
  have f2 := readLine hl1 (i := 2) (by omega)
  have f0 := writeLine hl1 (i := 0) (by omega)
  simp only [Nat.cast_ofNat, Nat.cast_one, Nat.cast_zero] at f0 f1 f2
  rw [backFirst, read2 hs (i := 0) (j := 3) (by omega) (by omega), ok_bind,
    read2 hs (i := 0) (j := 1) (by omega) (by omega), ok_bind, f1, ok_bind,
    read2 hs (i := 0) (j := 2) (by omega) (by omega), ok_bind, f2, ok_bind, f0]
  refine ⟨_, rfl, hs1, ?_, ?_⟩
  · intro i hi
    simp only [U, Line.nat_inj, solve]
    by_cases h : i = 0
    · rw [if_pos h, if_pos h, t0, t1, t2, t3, h0.1, h0.2.1, h0.2.2]
      have g1 := hb1 m le_rfl
      have g2 := hb1 (m - 1) (by omega)
      rw [show m + 1 - m = 1 by omega] at g1
      rw [show m + 1 - (m - 1) = 2 by omega] at g2
      rw [g1, g2]
    · rw [if_neg h, if_neg h]
      have := hb1 (m + 1 - i) (by omega)
      rw [show m + 1 - (m + 1 - i) = i by omega] at this
      exact this
  · intro idx hidx
    simp only [U]
    rw [if_neg (hidx 0 (by omega))]
    exact ho1 idx hidx

theorem solve_ok {δ : K} {m : ℕ} {data : ℕ → K} {b C : NdArray K} {l : Line} (hm : 2 ≤ m)
    (hp : NoZeroPivot δ m) (hb : Filled δ m data b) (hl : LineOk C.shape l (m + 2)) :
    ∃ b' C', solveDerivInterp1d b C l = .ok (b', C') ∧ b'.shape = b.shape ∧
      LineSet C l (m + 2) (solve δ m data) C' := by
  obtain ⟨b1, e1, h1⟩ := elim_ok hm hp hb
  obtain ⟨b2, e2, s2, htop, hrow, h0⟩ := elim_last hm hp h1
  obtain ⟨C', e3, h3⟩ := back_ok hm s2 htop hrow h0 hl
  refine ⟨b2, C', ?_, by rw [s2, hb.1], h3⟩
  have hM : ((l.len C : ℕ) : ℤ) - 2 = (m : ℤ) := by rw [hl.len]; push_cast; ring
  unfold solveDerivInterp1d
  simp only [hM]
  rw [← bind_assoc, e1, ok_bind, e2, ok_bind]
  have : ∀ (x : Py (NdArray K)), x = .ok C' → (x >>= fun C => (pure (b2, C) : Py _)) = .ok (b2, C') := by
    intro x hx; rw [hx]; rfl
  rw [← this _ e3]
  simp only [bind_assoc]

/-! ### Filling the bands -/

theorem fill_ok (δ : K) {m : ℕ} (data : ℕ → K) (rd : ℤ → Py K) {b : NdArray K}
    (hs : b.shape = [m + 2, 4]) (hrd : ∀ i < m, rd (i : ℤ) = .ok (data i)) :
    ∃ b', fillBands δ (m : ℤ) rd b = .ok b' ∧ Filled δ m data b' := by
  have t0 : Int.toNat 0 = 0 := rfl
  have t1 : Int.toNat 1 = 1 := rfl
  have t2 : Int.toNat 2 = 2 := rfl
  have t3 : Int.toNat 3 = 3 := rfl
  have tm : ((m : ℤ) + 1).toNat = m + 1 := by omega
  have zz : (0 : ℤ) ≤ 0 ∧ (0 : ℤ) < (m + 2 : ℕ) := by omega
  have mm : (0 : ℤ) ≤ (m : ℤ) + 1 ∧ (m : ℤ) + 1 < (m + 2 : ℕ) := by omega
  have c0 : (0 : ℤ) ≤ 0 ∧ (0 : ℤ) < 4 := by omega
  have c1 : (0 : ℤ) ≤ 1 ∧ (1 : ℤ) < 4 := by omega
  have c2 : (0 : ℤ) ≤ 2 ∧ (2 : ℤ) < 4 := by omega
  have c3 : (0 : ℤ) ≤ 3 ∧ (3 : ℤ) < 4 := by omega
  have r4 : rangeZ 0 4 = [0, 1, 2, 3] := rfl
  have r3 : rangeZ 0 3 = [0, 1, 2] := rfl
  unfold fillBands
  have hbd : ∃ b1 : NdArray K,
      pyFor (rangeZ 0 4) (fun i (b : NdArray K) => do
        let b ← b.write [0, i] (abcd δ i)
        b.write [(m : ℤ) + 1, i] (abcd δ i)) b = .ok b1 ∧ b1.shape = [m + 2, 4] ∧
      (b1.get [0, 0] = fA δ ∧ b1.get [0, 1] = fB δ ∧ b1.get [0, 2] = fA δ ∧ b1.get [0, 3] = 0) ∧
      (b1.get [m + 1, 0] = fA δ ∧ b1.get [m + 1, 1] = fB δ ∧ b1.get [m + 1, 2] = fA δ ∧
        b1.get [m + 1, 3] = 0) := by
    simp only [r4, pyFor_cons, pyFor_nil, bind_assoc]
    rw [write2 hs zz c0, ok_bind, write2 (by simpa using hs) mm c0, ok_bind,
      write2 (by simpa using hs) zz c1, ok_bind, write2 (by simpa using hs) mm c1, ok_bind,
      write2 (by simpa using hs) zz c2, ok_bind, write2 (by simpa using hs) mm c2, ok_bind,
      write2 (by simpa using hs) zz c3, ok_bind, write2 (by simpa using hs) mm c3, ok_bind]
    refine ⟨_, rfl, by simpa using hs, ?_⟩
    simp only [t0, t1, t2, t3, tm, W_get]
    simp [abcd, fA, fB]
  obtain ⟨b1, e1, s1, f0, fl⟩ := hbd
  rw [e1, ok_bind]
  simp only [r3, pyFor_cons, pyFor_nil, bind_assoc]
  rw [rangeZ, pyFor_map, show ((m : ℤ) - 0).toNat = m by omega]
  let P : ℕ → NdArray K → Prop := fun k b => b.shape = [m + 2, 4] ∧
    (b.get [0, 0] = fA δ ∧ b.get [0, 1] = fB δ ∧ b.get [0, 2] = fA δ ∧ b.get [0, 3] = 0) ∧
    (b.get [m + 1, 0] = fA δ ∧ b.get [m + 1, 1] = fB δ ∧ b.get [m + 1, 2] = fA δ ∧
      b.get [m + 1, 3] = 0) ∧
    ∀ i < k, b.get [i + 1, 0] = β0 ∧ b.get [i + 1, 1] = β1 ∧ b.get [i + 1, 2] = β0 ∧
      b.get [i + 1, 3] = data i
  refine pyFor_range m _ P b1 ⟨s1, f0, fl, fun i hi => by omega⟩ ?_
  intro i hi b ⟨sb, g0, gl, gr⟩
  have ei : (0 + Int.ofNat i : ℤ) = (i : ℤ) := by simp
  have ri : (0 : ℤ) ≤ (i : ℤ) + 1 ∧ (i : ℤ) + 1 < (m + 2 : ℕ) := by omega
  have ti : ((i : ℤ) + 1).toNat = i + 1 := by omega
  simp only [ei, hrd i hi, ok_bind]
  rw [write2 sb ri c0, ok_bind, write2 (by simpa using sb) ri c3, ok_bind,
    write2 (by simpa using sb) ri c1, ok_bind, write2 (by simpa using sb) ri c3, ok_bind,
    write2 (by simpa using sb) ri c2, ok_bind, write2 (by simpa using sb) ri c3]
  refine ⟨_, rfl, by simpa using sb, ?_, ?_, ?_⟩
  · simp only [t0, t1, t2, t3, ti, W_get]
    simpa using g0
  · simp only [t0, t1, t2, t3, ti, W_get]
    simpa [show m ≠ i by omega] using gl
  · intro j hj
    simp only [t0, t1, t2, t3, ti, W_get]
    rcases Nat.lt_or_eq_of_le (Nat.le_of_lt_succ hj) with hlt | rfl
    · simpa [show j ≠ i by omega] using gr j hlt
    · simp [basis, β0, β1]

/-- `find_coefs_1d` along one line. -/
theorem findCoefs_ok {δ : K} {m : ℕ} (data : ℕ → K) {src : Option (NdArray K)} {b C : NdArray K}
    {l : Line} (hm : 2 ≤ m) (hp : NoZeroPivot δ m) (hb : b.shape = [m + 2, 4])
    (hl : LineOk C.shape l (m + 2))
    (hrd : ∀ i < m, (src.getD C).read (l.pos (i : ℤ)) = .ok (data i)) :
    ∃ b' C', findCoefs1d δ src l (b, C) = .ok (b', C') ∧ b'.shape = [m + 2, 4] ∧
      LineSet C l (m + 2) (solve δ m data) C' := by
  obtain ⟨b1, e1, h1⟩ := fill_ok δ data (fun i => (src.getD C).read (l.pos i)) hb hrd
  obtain ⟨b2, C', e2, s2, h2⟩ := solve_ok hm hp h1 hl
  refine ⟨b2, C', ?_, by rw [s2, h1.1], h2⟩
  have hM : ((b.shape.getD 0 0 : ℕ) : ℤ) - 2 = (m : ℤ) := by rw [hb]; simp
  unfold findCoefs1d
  simp only [hM]
  rw [e1, ok_bind, e2]

theorem oldFindCoefs_ok {δ : K} {m : ℕ} (data : ℕ → K) {src : Option (NdArray K)} {C : NdArray K}
    {l : Line} (hm : 2 ≤ m) (hp : NoZeroPivot δ m) (hl : LineOk C.shape l (m + 2))
    (hrd : ∀ i < m, (src.getD C).read (l.pos (i : ℤ)) = .ok (data i)) :
    ∃ C', oldFindCoefs1d δ m src l C = .ok C' ∧ LineSet C l (m + 2) (solve δ m data) C' := by
  obtain ⟨b1, e1, h1⟩ := fill_ok δ data (fun i => (src.getD C).read (l.pos i))
    (b := .zeros [m + 2, 4]) rfl hrd
  obtain ⟨b2, C', e2, s2, h2⟩ := solve_ok hm hp h1 hl
  refine ⟨C', ?_, h2⟩
  unfold oldFindCoefs1d
  rw [e1, ok_bind, e2]; rfl

end Interp.Filter
