import Verif.Proofs.SmolGrid
import Verif.Proofs.SmolInterp
import Verif.Proofs.Rounding
import Verif.Spec.RoundingTrig

/-!
# The nodes of `s_n` and the Smolyak grid in rounded arithmetic
-/

set_option linter.unusedSectionVars false

namespace Interp.Smolyak
open Interp.Spec Interp.Codegen Real

/-! ### Distances between the extrema -/

/-- Every extremum but the middle one is away from zero. -/
theorem extremum_away (m j : ℕ) (hj : j ≤ 2 ^ (m + 1)) (hne : j ≠ 2 ^ m) :
    2 / 2 ^ (m + 1) ≤ |cos (π * j / 2 ^ (m + 1))| := by
  have e : cos (π * j / 2 ^ (m + 1)) = sin (((2:ℝ) ^ m - j) * (π / 2 ^ (m + 1))) := by
    rw [← cos_pi_div_two_sub]
    congr 1
    rw [pow_succ]; field_simp; ring
  have hr1 : (1:ℝ) ≤ |(2:ℝ) ^ m - j| := by
    have : (1 : ℤ) ≤ |(2:ℤ) ^ m - j| := by
      apply Int.one_le_abs
      intro h0
      apply hne
      have : ((2 ^ m : ℕ) : ℤ) = j := by push_cast; omega
      exact_mod_cast this.symm
    exact_mod_cast this
  have hr2 : |(2:ℝ) ^ m - j| ≤ 2 ^ m := by
    rw [abs_le]
    have hj2 : (j:ℝ) ≤ 2 ^ (m + 1) := by exact_mod_cast hj
    rw [pow_succ] at hj2
    have hj0 : (0:ℝ) ≤ j := by positivity
    constructor <;> linarith
  have hpos : 0 < π / 2 ^ (m + 1) := by positivity
  have ha : |((2:ℝ) ^ m - j) * (π / 2 ^ (m + 1))| = |(2:ℝ) ^ m - j| * (π / 2 ^ (m + 1)) := by
    rw [abs_mul, abs_of_pos hpos]
  have hle : |((2:ℝ) ^ m - j) * (π / 2 ^ (m + 1))| ≤ π / 2 := by
    rw [ha]
    calc |(2:ℝ) ^ m - j| * (π / 2 ^ (m + 1)) ≤ 2 ^ m * (π / 2 ^ (m + 1)) := by gcongr
      _ = π / 2 := by rw [pow_succ]; field_simp
  have h := mul_abs_le_abs_sin hle
  rw [e]
  refine le_trans ?_ h
  rw [ha]
  have : 2 / π * (|(2:ℝ) ^ m - j| * (π / 2 ^ (m + 1))) = |(2:ℝ) ^ m - j| * (2 / 2 ^ (m + 1)) := by
    field_simp
  rw [this]
  have h2 : (0:ℝ) ≤ 2 / 2 ^ (m + 1) := by positivity
  nlinarith

/-- Two extrema are away from each other. -/
theorem extrema_apart (N i j : ℕ) (hij : i < j) (hj : j ≤ N) :
    2 / (N : ℝ) ^ 2 ≤ cos (π * i / N) - cos (π * j / N) := by
  have hN : (0:ℝ) < N := by exact_mod_cast (by omega : 0 < N)
  have hi0 : (0:ℝ) ≤ i := Nat.cast_nonneg i
  have hij' : (i:ℝ) + 1 ≤ j := by exact_mod_cast hij
  have hj' : (j:ℝ) ≤ N := by exact_mod_cast hj
  have hp := pi_pos
  have key : ∀ k : ℝ, 1 ≤ k → k ≤ N → 1 / (N:ℝ) ≤ sin (π * k / (2 * N)) := by
    intro k h1 h2
    have a1 : 0 ≤ π * k / (2 * N) := by positivity
    have a2 : π * k / (2 * N) ≤ π / 2 := by
      rw [div_le_div_iff₀ (by positivity) (by norm_num)]; nlinarith
    refine le_trans ?_ (mul_le_sin a1 a2)
    have : 2 / π * (π * k / (2 * N)) = k / N := by field_simp
    rw [this]
    gcongr
  have e : cos (π * i / N) - cos (π * j / N) = 2 * sin (π * ((i:ℝ) + j) / (2 * N)) * sin (π * ((j:ℝ) - i) / (2 * N)) := by
    rw [cos_sub_cos, show (π * i / N + π * j / N) / 2 = π * ((i:ℝ) + j) / (2 * N) by field_simp,
      show (π * i / N - π * j / N) / 2 = -(π * ((j:ℝ) - i) / (2 * N)) by field_simp; ring, sin_neg]
    ring
  have s1 : 1 / (N:ℝ) ≤ sin (π * ((i:ℝ) + j) / (2 * N)) := by
    rcases le_total ((i:ℝ) + j) N with h | h
    · exact key _ (by linarith) h
    · have := key (2 * N - (i + j)) (by linarith) (by linarith)
      rwa [show π * (2 * (N:ℝ) - (i + j)) / (2 * N) = π - π * ((i:ℝ) + j) / (2 * N) by field_simp, sin_pi_sub] at this
  have s2 := key (j - i) (by linarith) (by linarith)
  have n0 : (0:ℝ) ≤ 1 / N := by positivity
  rw [e, show 2 / (N:ℝ) ^ 2 = 2 * (1 / N) * (1 / N) by field_simp]
  gcongr
  linarith

/-! ### The nodes -/

variable {R : Rounding} [Trig (Fl R)]

/-- The argument of the cosine. -/
theorem angle_close (hT : TrigErr R) (hu : R.u ≤ 1 / 2 ^ 52) (j N : ℕ) (hN : 1 ≤ N) (hj : j ≤ N) :
    |((Trig.pi : Fl R) * (((j + 1 : ℕ) : Fl R) - 1) / (((N + 1 : ℕ) : Fl R) - 1)).val - π * j / N| ≤ 17 * R.u := by
  have u0 := Rounding.u_nonneg R
  have hN' : (1:ℝ) ≤ N := by exact_mod_cast hN
  have hj' : (j:ℝ) ≤ N := by exact_mod_cast hj
  have hp := pi_pos
  have n1 : Near R.u π (Trig.pi : Fl R).val := by unfold Near; rw [abs_of_pos hp]; exact hT.pi
  have n2 : Near R.u (j : ℝ) (((j + 1 : ℕ) : Fl R) - 1).val := by
    have := R.err (((j + 1 : ℕ) : ℝ) - 1)
    unfold Near
    rw [Fl.sub_val, Fl.natCast_val, Fl.one_val]
    push_cast at this ⊢
    rwa [add_sub_cancel_right] at this ⊢
  have n3 : Near R.u (N : ℝ) (((N + 1 : ℕ) : Fl R) - 1).val := by
    have := R.err (((N + 1 : ℕ) : ℝ) - 1)
    unfold Near
    rw [Fl.sub_val, Fl.natCast_val, Fl.one_val]
    push_cast at this ⊢
    rwa [add_sub_cancel_right] at this ⊢
  have n4 := (n1.mul n2).rnd (R := R)
  have hu' : R.u ≤ 1 / 1000 := hu.trans (by norm_num)
  have q1 : R.u * R.u ≤ R.u / 1000 := by nlinarith
  have q2 : R.u * R.u * R.u ≤ R.u / 1000 := by nlinarith
  have n5 : Near (3.01 * R.u) (π * j) ((Trig.pi : Fl R) * (((j + 1 : ℕ) : Fl R) - 1)).val := n4.mono (by linarith)
  have n6 := (n5.div n3 (by linarith) u0 (by linarith)).rnd (R := R)
  have n7 : Near (5.1 * R.u) (π * j / N) ((Trig.pi : Fl R) * (((j + 1 : ℕ) : Fl R) - 1) / (((N + 1 : ℕ) : Fl R) - 1)).val := by
    refine n6.mono ?_
    have e : (3.01 * R.u + R.u) / (1 - R.u) ≤ 4.02 * R.u := by
      rw [div_le_iff₀ (by linarith)]; linarith
    have e' := mul_le_mul_of_nonneg_right e u0
    linarith
  have hle : |π * j / N| ≤ 3.15 := by
    rw [abs_of_nonneg (by positivity), div_le_iff₀ (by linarith)]
    have := pi_lt_d2
    have h0 : (0:ℝ) ≤ j := Nat.cast_nonneg j
    nlinarith
  refine n7.trans ?_
  have := mul_le_mul_of_nonneg_left hle (show 0 ≤ 5.1 * R.u by linarith)
  linarith

/-- A node before small numbers are replaced. -/
theorem raw_close (hT : TrigErr R) (hu : R.u ≤ 1 / 2 ^ 52) (j N : ℕ) (hN : 1 ≤ N) (hj : j ≤ N) :
    |(-1 * Trig.cos ((Trig.pi : Fl R) * (((j + 1 : ℕ) : Fl R) - 1) / (((N + 1 : ℕ) : Fl R) - 1))).val - -cos (π * j / N)|
      ≤ 21 * R.u := by
  have u0 := Rounding.u_nonneg R
  have hu' : R.u ≤ 1 / 1000 := hu.trans (by norm_num)
  have hN' : (1:ℝ) ≤ N := by exact_mod_cast hN
  have hj' : (j:ℝ) ≤ N := by exact_mod_cast hj
  have h1 := angle_close hT hu j N hN hj
  set a := (Trig.pi : Fl R) * (((j + 1 : ℕ) : Fl R) - 1) / (((N + 1 : ℕ) : Fl R) - 1) with ha
  have hle : |π * j / N| ≤ 3.15 := by
    have hp := pi_pos
    rw [abs_of_nonneg (by positivity), div_le_iff₀ (by linarith)]
    have := pi_lt_d2
    have h0 : (0:ℝ) ≤ j := Nat.cast_nonneg j
    nlinarith
  have ha4 : |a.val| ≤ 4 := by
    have := abs_add_le (a.val - π * j / N) (π * j / N)
    rw [sub_add_cancel] at this
    linarith
  have h2 := hT.cos a ha4
  have h3 : |cos a.val - cos (π * j / N)| ≤ 17 * R.u := (abs_cos_sub_cos_le _ _).trans h1
  have h4 : |(Trig.cos a).val - cos (π * j / N)| ≤ 19 * R.u := by
    have := abs_add_le ((Trig.cos a).val - cos a.val) (cos a.val - cos (π * j / N))
    rw [sub_add_sub_cancel] at this
    linarith
  have h5 : |(Trig.cos a).val| ≤ 1.02 := by
    have := abs_add_le ((Trig.cos a).val - cos (π * j / N)) (cos (π * j / N))
    rw [sub_add_cancel] at this
    have := abs_cos_le_one (π * j / N)
    linarith
  have h6 : |(-1 * Trig.cos a : Fl R).val - -(Trig.cos a).val| ≤ R.u * 1.02 := by
    have := R.err ((-1 : Fl R).val * (Trig.cos a).val)
    rw [Fl.mul_val]
    rw [Fl.neg_val, Fl.one_val, neg_mul, one_mul, abs_neg] at *
    exact this.trans (mul_le_mul_of_nonneg_left h5 u0)
  have h7 := abs_add_le ((-1 * Trig.cos a : Fl R).val - -(Trig.cos a).val) (-(Trig.cos a).val - -cos (π * j / N))
  rw [sub_add_sub_cancel, neg_sub_neg, abs_sub_comm (cos _)] at h7
  linarith

theorem absK_val (x : Fl R) : (absK x).val = |x.val| := by
  unfold absK
  by_cases h : x < 0
  · rw [if_pos h, Fl.neg_val, abs_of_neg h]
  · rw [if_neg h, abs_of_nonneg (not_lt.mp h)]

/-- Entry `j` of `s_n(n)`: close to the extremum, and zero exactly at the middle. -/
theorem node_close (hT : TrigErr R) (hu : R.u ≤ 1 / 2 ^ 52) (m j : ℕ) (hm : m ≤ 45) (hj : j ≤ 2 ^ (m + 1)) (x : Fl R)
    (hx : |x.val - -cos (π * j / 2 ^ (m + 1))| ≤ 21 * R.u) :
    |(flush x).val - -cos (π * j / 2 ^ (m + 1))| ≤ 21 * R.u ∧ ((flush x).val = 0 ↔ j = 2 ^ m) := by
  have u0 := Rounding.u_nonneg R
  have ht := abs_le.1 hT.tol
  have hu21 : 21 * R.u ≤ 5 / 10 ^ 15 := by
    have := mul_le_mul_of_nonneg_left hu (show (0:ℝ) ≤ 21 by norm_num)
    refine this.trans ?_
    norm_num
  have hfl : flush x = if absK x < Trig.tol then 0 else x := rfl
  by_cases hmid : j = 2 ^ m
  · have hc : cos (π * j / 2 ^ (m + 1)) = 0 := by
      rw [hmid]; push_cast
      rw [pow_succ, show π * 2 ^ m / (2 ^ m * 2) = π / 2 by field_simp]
      exact cos_pi_div_two
    rw [hc, neg_zero, sub_zero] at hx ⊢
    have : absK x < Trig.tol := by
      rw [Fl.lt_iff, absK_val]
      norm_num at ht hu21 ⊢
      linarith
    rw [hfl, if_pos this, Fl.zero_val, abs_zero]
    exact ⟨by linarith, by simp [hmid]⟩
  · have h1 := extremum_away m j hj hmid
    have h2 : (2:ℝ) / 2 ^ 46 ≤ 2 / 2 ^ (m + 1) := by
      gcongr
      · norm_num
      · omega
    have h3 : |cos (π * j / 2 ^ (m + 1))| - 21 * R.u ≤ |x.val| := by
      have := abs_sub_abs_le_abs_sub (-cos (π * j / 2 ^ (m + 1))) x.val
      rw [abs_neg, abs_sub_comm] at this
      linarith
    have h4 : (1.02 : ℝ) / 10 ^ 14 ≤ |x.val| := by
      norm_num at h2 hu21 ⊢
      linarith
    have : ¬ absK x < Trig.tol := by
      rw [Fl.lt_iff, absK_val, not_lt]
      norm_num at ht h4 ⊢
      linarith
    rw [hfl, if_neg this]
    refine ⟨hx, ?_⟩
    constructor
    · intro h0; rw [h0, abs_zero] at h4; norm_num at h4
    · intro h; exact absurd h hmid

/-- `s_n(n)` as a list. -/
theorem sN_fl (n : ℕ) (hn : 2 ≤ n) : (sN n : List (Fl R)) = (List.range (2 ^ (n - 1) + 1)).map fun j =>
    flush (-1 * Trig.cos ((Trig.pi : Fl R) * (((j + 1 : ℕ) : Fl R) - 1) / (((2 ^ (n - 1) + 1 : ℕ) : Fl R) - 1))) := by
  unfold sN
  rw [if_neg (by omega)]
  simp only [List.map_map]
  rfl

/-! ### From the nodes to the grid -/

section rel
variable {α β : Type} {r : α → β → Prop}

theorem evens_rel : ∀ (l : List α) (l' : List β), List.Forall₂ r l l' → List.Forall₂ r (evens l) (evens l')
  | _, _, .nil => .nil
  | _, _, .cons h .nil => .cons h .nil
  | _ :: _ :: l, _ :: _ :: l', .cons h (.cons _ t) => .cons h (evens_rel l l' t)

theorem odds_rel : ∀ (l : List α) (l' : List β), List.Forall₂ r l l' → List.Forall₂ r (odds l) (odds l')
  | _, _, .nil => .nil
  | _, _, .cons _ .nil => .nil
  | _ :: _ :: l, _ :: _ :: l', .cons _ (.cons h t) => .cons h (odds_rel l l' t)

/-- Dictionaries with the same keys and related lists. -/
def DictRel (r : α → β → Prop) (D : Dict α) (D' : Dict β) : Prop :=
  List.Forall₂ (fun p q => p.1 = q.1 ∧ List.Forall₂ r p.2 q.2) D D'

theorem dictGet_rel {D : Dict α} {D' : Dict β} (h : DictRel r D D') (i : ℤ) {v' : List β} (hv : dictGet D' i = .ok v') :
    ∃ v, dictGet D i = .ok v ∧ List.Forall₂ r v v' := by
  unfold dictGet at hv ⊢
  induction h with
  | nil => cases hv
  | @cons p q D D' hpq _ ih =>
    obtain ⟨k, v⟩ := p
    obtain ⟨k', w⟩ := q
    obtain ⟨rfl, hvw⟩ := hpq
    simp only [List.lookup_cons] at hv ⊢
    by_cases hk : i = k
    · subst hk
      simp only [beq_self_eq_true] at hv ⊢
      cases hv
      exact ⟨v, rfl, hvw⟩
    · have : (i == k) = false := by simpa using hk
      simp only [this] at hv ⊢
      exact ih hv

theorem chain_rel (l : List ℤ) : ∀ (s : Dict α × List α) (s' : Dict β × List β), DictRel r s.1 s'.1 → List.Forall₂ r s.2 s'.2 →
    DictRel r (l.foldl (fun (s : Dict α × List α) seq => ((seq, odds s.2) :: s.1, evens s.2)) s).1
      (l.foldl (fun (s : Dict β × List β) seq => ((seq, odds s.2) :: s.1, evens s.2)) s').1 := by
  induction l with
  | nil => intro s s' h1 _; exact h1
  | cons a l ih =>
    intro s s' h1 h2
    exact ih _ _ (.cons ⟨rfl, odds_rel _ _ h2⟩ h1) (evens_rel _ _ h2)

theorem iterProduct_rel : ∀ {ls : List (List α)} {ls' : List (List β)}, List.Forall₂ (List.Forall₂ r) ls ls' →
    List.Forall₂ (List.Forall₂ r) (iterProduct ls) (iterProduct ls')
  | _, _, .nil => .cons .nil .nil
  | _, _, .cons h t => by
    rw [iterProduct, iterProduct]
    refine List.rel_flatMap h fun a b hab => ?_
    exact List.rel_map (fun _ _ hxy => .cons hab hxy) (iterProduct_rel t)

theorem mapM_rel {γ : Type} {f : γ → Py α} {g : γ → Py β} : ∀ (l : List γ) {w : List β},
    (∀ c ∈ l, ∀ b, g c = .ok b → ∃ a, f c = .ok a ∧ r a b) → l.mapM g = .ok w → ∃ v, l.mapM f = .ok v ∧ List.Forall₂ r v w
  | [], w, _, hw => by
    simp only [List.mapM_nil] at hw ⊢
    cases hw
    exact ⟨[], rfl, .nil⟩
  | c :: l, w, h, hw => by
    rw [List.mapM_cons] at hw
    cases hg : g c with
    | error e => rw [hg] at hw; cases hw
    | ok b =>
      rw [hg, ok_bind] at hw
      cases hl : l.mapM g with
      | error e => rw [hl] at hw; cases hw
      | ok w' =>
        rw [hl, ok_bind] at hw
        cases hw
        obtain ⟨a, ha, hab⟩ := h c (by simp) b hg
        obtain ⟨v, hv, hvw⟩ := mapM_rel l (fun c hc => h c (by simp [hc])) hl
        refine ⟨a :: v, ?_, .cons hab hvw⟩
        rw [List.mapM_cons, ha, ok_bind, hv, ok_bind]; rfl

theorem getD_rel {l : List α} {l' : List β} (h : List.Forall₂ r l l') {a : α} {b : β} (hab : r a b) (i : ℕ) :
    r (l.getD i a) (l'.getD i b) := by
  induction h generalizing i with
  | nil => simpa using hab
  | cons h0 _ ih => cases i with
    | zero => simpa using h0
    | succ i => simpa using ih i

end rel

/-- Close numbers. -/
def Close (R : Rounding) (a : Fl R) (b : ℝ) : Prop := |a.val - b| ≤ 21 * R.u

theorem close_of_eq (a : Fl R) : Close R a a.val := by
  have := Rounding.u_nonneg R
  unfold Close; rw [sub_self, abs_zero]; linarith

theorem sN_rel (hT : TrigErr R) (hu : R.u ≤ 1 / 2 ^ 52) (n : ℕ) (hn : 2 ≤ n) (h47 : n ≤ 47) :
    List.Forall₂ (Close R) (sN n) (sN n) := by
  rw [sN_fl n hn, sN_eq n hn]
  obtain ⟨m, rfl⟩ : ∃ m, n = m + 2 := ⟨n - 2, by omega⟩
  simp only [show m + 2 - 1 = m + 1 by omega]
  rw [List.forall₂_map_left_iff, List.forall₂_map_right_iff, List.forall₂_same]
  intro j hj
  have hj' : j ≤ 2 ^ (m + 1) := by have := List.mem_range.1 hj; omega
  rw [sNode_exact (m + 2) j hn (by omega) (by simpa using hj')]
  have h := raw_close hT hu j (2 ^ (m + 1)) Nat.one_le_two_pow hj'
  rw [show ((2 ^ (m + 1) : ℕ) : ℝ) = 2 ^ (m + 1) by push_cast; ring] at h
  exact (node_close hT hu m j (by omega) hj' _ h).1

theorem aChain_rel (hT : TrigErr R) (hu : R.u ≤ 1 / 2 ^ 52) (n : ℕ) (hn : 2 ≤ n) (h47 : n ≤ 47) :
    DictRel (Close R) (aChain n) (aChain n) := by
  unfold aChain
  refine chain_rel _ _ _ (.cons ⟨rfl, .cons ?_ (.cons ?_ .nil)⟩ (.cons ⟨rfl, .cons ?_ .nil⟩ .nil)) (sN_rel hT hu n hn h47)
  · simpa [Fl.neg_val, Fl.one_val] using close_of_eq (-1 : Fl R)
  · simpa [Fl.one_val] using close_of_eq (1 : Fl R)
  · simpa [Fl.zero_val] using close_of_eq (0 : Fl R)

theorem buildGrid_rel (hT : TrigErr R) (hu : R.u ≤ 1 / 2 ^ 52) {d M : ℕ} {mu : Mu} {inds : List (List ℤ)} (hi : IndsOK d mu M inds)
    (hM : M ≤ 46) : ∃ rows : List (List (Fl R)), buildGrid d mu (some inds) = .ok (ofRows d rows) ∧
      List.Forall₂ (List.Forall₂ (Close R)) rows (gridRows inds) := by
  have hc := aChain_rel hT hu (M + 1) (by have := hi.pos; omega) (by omega)
  have hp : ∃ pts, inds.mapM (fun el => do
      let temp ← el.mapM (dictGet (aChain (M + 1) : Dict (Fl R)))
      pure (iterProduct temp)) = Except.ok pts ∧ List.Forall₂ (List.Forall₂ (List.Forall₂ (Close R))) pts
        (inds.map fun el => iterProduct (el.map fun e => aLevel e.toNat)) := by
    refine mapM_rel (r := List.Forall₂ (List.Forall₂ (Close R))) (g := fun el => do
      let temp ← el.mapM (dictGet (aChain (M + 1) : Dict ℝ))
      pure (iterProduct temp)) inds (fun el hel b hb => ?_) ?_
    · cases ht : el.mapM (dictGet (aChain (M + 1) : Dict ℝ)) with
      | error e => rw [ht] at hb; cases hb
      | ok t =>
        rw [ht, ok_bind] at hb
        cases hb
        obtain ⟨v, hv, hvw⟩ := mapM_rel (r := List.Forall₂ (Close R)) (f := dictGet (aChain (M + 1) : Dict (Fl R))) el
          (fun c _ b hb => dictGet_rel hc c hb) ht
        exact ⟨iterProduct v, by rw [hv, ok_bind]; rfl, iterProduct_rel hvw⟩
    · rw [mapM_ok _ fun el => iterProduct (el.map fun e => aLevel e.toNat)]
      intro el hel
      rw [mapM_ok _ fun e => aLevel e.toNat]
      · rfl
      · intro e he
        have := (hi.entry hel).2 e he
        have h1 := aChain_lookup (M + 1) e.toNat (by omega) (by omega) (by have := hi.pos; omega)
        rwa [Int.toNat_of_nonneg (by omega)] at h1
  obtain ⟨pts, hp1, hp2⟩ := hp
  refine ⟨pts.flatten, ?_, ?_⟩
  · rw [buildGrid]
    simp only [indsOr, pure_eq_ok, ok_bind, hi.top, show ((M : ℤ) + 1).toNat = M + 1 by omega]
    simp only [pure_eq_ok] at hp1
    rw [hp1]; rfl
  · have := List.rel_flatten hp2
    rwa [← List.flatMap_def] at this

end Interp.Smolyak
