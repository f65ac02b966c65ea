import Verif.Model.Objects
import Verif.Proofs.ExceptLemmas
import Mathlib.Data.Rat.Floor
import Mathlib.Algebra.Order.Ring.Rat

/-!
# Spline objects depend only on the last accepted values (C74)

Any arithmetic, any dimension, any bounds.  "Freshly built" is the constructor called with the same
grid and the values; a call to `set_values` is accepted when this constructor does not raise.

An object also has the attribute `__values__`.  `CubicSpline.set_values` stores it before filtering,
so that it can differ from the data of the coefficients when the filter raises; none of the methods
reads it, and `C74` is about what the methods return.
-/

set_option linter.unusedSectionVars false
set_option linter.unusedSimpArgs false

namespace Interp.Props
open Interp.Codegen Interp.Objects

/-- The object after a history of updates. -/
def after {S V : Type} (upd : S → V → Py Unit × S) (s0 : S) (hist : List V) : S :=
  hist.foldl (fun s v => (upd s v).2) s0

/-- What C74 says of an object `s0` with no values, its update method and its constructor, where
`Alike s s'` says that no method call tells `s` from `s'`. -/
structure HistoryLaw {S V : Type} (upd : S → V → Py Unit × S) (new : V → Py S)
    (Alike : S → S → Prop) (s0 : S) : Prop where
  /-- After any history the object behaves as one built from the last accepted values. -/
  last : ∀ pre v post s1, new v = .ok s1 → (∀ w ∈ post, ∃ e, new w = .error e) →
    Alike (after upd s0 (pre ++ v :: post)) s1
  /-- As long as nothing is accepted it behaves as at the start. -/
  none : ∀ hist, (∀ w ∈ hist, ∃ e, new w = .error e) → Alike (after upd s0 hist) s0
  /-- Whatever the history, values are rejected exactly when the constructor rejects them, with the
  same error, -/
  reject : ∀ hist v e, (upd (after upd s0 hist) v).1 = .error e ↔ new v = .error e
  /-- and then nothing changes. -/
  same : ∀ hist v e, (upd (after upd s0 hist) v).1 = .error e →
    Alike (upd (after upd s0 hist) v).2 (after upd s0 hist)

/-- The induction shared by the four classes: `core` is the part of the state that the methods
read, and `res v` what an update with `v` makes of it. -/
theorem historyLaw {S V C : Type} {upd : S → V → Py Unit × S} {new : V → Py S}
    {Alike : S → S → Prop} {s0 : S} (Inv : S → Prop) (core : S → C) (res : V → Py C)
    (h0 : Inv s0) (hinv : ∀ s v, Inv s → Inv (upd s v).2)
    (hres : ∀ s v, Inv s → (∃ e, res v = .error e ∧ (upd s v).1 = .error e ∧
        core (upd s v).2 = core s) ∨
      ∃ c, res v = .ok c ∧ (upd s v).1 = .ok () ∧ core (upd s v).2 = c)
    (hnew : ∀ v, new v = (upd s0 v).1 >>= fun _ => .ok (upd s0 v).2)
    (hAlike : ∀ s s', Inv s → Inv s' → core s = core s' → Alike s s') :
    HistoryLaw upd new Alike s0 := by
  have hI : ∀ (hist : List V) (s : S), Inv s → Inv (hist.foldl (fun s v => (upd s v).2) s) := by
    intro hist
    induction hist with
    | nil => exact fun s h => h
    | cons w l ih => exact fun s h => ih _ (hinv _ _ h)
  have herr : ∀ v e, new v = .error e ↔ res v = .error e := by
    intro v e
    rw [hnew]
    rcases hres s0 v h0 with ⟨e', h1, h2, _⟩ | ⟨c, h1, h2, _⟩ <;> rw [h1, h2] <;> simp
  have hupd : ∀ s v e, Inv s → ((upd s v).1 = .error e ↔ res v = .error e) := by
    intro s v e hs
    rcases hres s v hs with ⟨e', h1, h2, _⟩ | ⟨c, h1, h2, _⟩ <;> rw [h1, h2] <;> simp
  have hrej : ∀ s v, Inv s → (∃ e, res v = .error e) → core (upd s v).2 = core s := by
    rintro s v hs ⟨e, he⟩
    rcases hres s v hs with ⟨_, _, _, h3⟩ | ⟨c, h1, _⟩
    · exact h3
    · rw [h1] at he; cases he
  have hall : ∀ (hist : List V) (s : S), Inv s → (∀ w ∈ hist, ∃ e, res w = .error e) →
      core (hist.foldl (fun s v => (upd s v).2) s) = core s := by
    intro hist
    induction hist with
    | nil => exact fun s _ _ => rfl
    | cons w l ih =>
      intro s hs h
      rw [List.foldl_cons, ih _ (hinv _ _ hs) fun x hx => h x (by simp [hx])]
      exact hrej s w hs (h w (by simp))
  refine ⟨?_, ?_, ?_, ?_⟩
  · intro pre v post s1 hv hpost
    rw [hnew] at hv
    rcases hres s0 v h0 with ⟨e, h1, h2, _⟩ | ⟨c, h1, h2, h3⟩
    · rw [h2] at hv; cases hv
    · rw [h2] at hv
      have hv : (upd s0 v).2 = s1 := by injection hv
      rw [← hv]
      refine hAlike _ _ (hI _ _ h0) (hinv _ _ h0) ?_
      simp only [after]
      rw [List.foldl_append, List.foldl_cons, hall post _ (hinv _ _ (hI _ _ h0))
        fun w hw => (hpost w hw).imp fun e he => (herr w e).1 he, h3]
      rcases hres _ v (hI pre s0 h0) with ⟨e, g1, _⟩ | ⟨c', g1, _, g3⟩
      · rw [h1] at g1; cases g1
      · rw [g3]; rw [h1] at g1; cases g1; rfl
  · intro hist h
    exact hAlike _ _ (hI _ _ h0) h0
      (hall hist _ h0 fun w hw => (h w hw).imp fun e he => (herr w e).1 he)
  · intro hist v e
    rw [herr]; exact hupd _ v e (hI _ _ h0)
  · intro hist v e h
    have hi := hI hist s0 h0
    exact hAlike _ _ (hinv _ _ hi) hi (hrej _ _ hi ⟨e, (hupd _ v e hi).1 h⟩)

variable {K : Type} [Add K] [Sub K] [Mul K] [Div K] [Neg K] [Zero K] [One K] [NatCast K]
  [IntCast K] [LT K] [DecidableLT K] [BEq K] [IntFloor K]

/-! ### `CubicSpline` -/

/-- No method tells the two objects apart. -/
def CubicSpline.Alike (fin : K → Bool) (s s' : CubicSpline K) : Prop :=
  (∀ points values wd garbage,
    s.interpolate fin points values wd garbage = s'.interpolate fin points values wd garbage) ∧
  (∀ points garbage, s.call fin points garbage = s'.call fin points garbage) ∧
  s.grid = s'.grid

/-- C74 for `CubicSpline`. -/
theorem C74_cubic_spline (fin : K → Bool) (a b : List K) (orders : List ℕ) (s0 : CubicSpline K)
    (h0 : CubicSpline.new fin a b orders none = .ok s0) :
    HistoryLaw (CubicSpline.setValues fin) (fun v => CubicSpline.new fin a b orders (some v))
      (CubicSpline.Alike fin) s0 := by
  have h1 : b.length = a.length := by
    by_contra hne
    simp [CubicSpline.new, hne] at h0
  have h2 : orders.length = a.length := by
    by_contra hne
    simp [CubicSpline.new, h1, hne] at h0
  have hs0 : s0 = { a := a, b := b, orders := orders } := by
    simp [CubicSpline.new, h1, h2] at h0
    exact h0.symm
  refine historyLaw (fun s => s.a = a ∧ s.b = b ∧ s.orders = orders) (fun s => s.coeffs)
    (fun v => if allFinite fin v = false then
        .error (.exception "Trying to interpolate non-finite values")
      else v.reshape orders >>= fun w => Filter.filterCoeffs a b orders w)
    (by rw [hs0]; exact ⟨rfl, rfl, rfl⟩) ?_ ?_ ?_ ?_
  · rintro s v ⟨ha, hb, ho⟩
    simp only [CubicSpline.setValues, ha, hb, ho]
    split
    · exact ⟨ha, hb, ho⟩
    · split
      · exact ⟨ha, hb, ho⟩
      · split <;> exact ⟨rfl, rfl, rfl⟩
  · rintro s v ⟨ha, hb, ho⟩
    simp only [CubicSpline.setValues, ha, hb, ho]
    by_cases hf : allFinite fin v = false
    · left; rw [if_pos hf, if_pos hf]; exact ⟨_, rfl, rfl, rfl⟩
    · rw [if_neg hf, if_neg hf]
      cases v.reshape orders with
      | error e => exact Or.inl ⟨e, rfl, rfl, rfl⟩
      | ok w =>
        simp only [ok_bind]
        cases Filter.filterCoeffs a b orders w with
        | error e => exact Or.inl ⟨e, rfl, rfl, rfl⟩
        | ok c => exact Or.inr ⟨c, rfl, rfl, rfl⟩
  · intro v
    rw [hs0]
    simp [CubicSpline.new, h1, h2]
  · rintro s s' ⟨ha, hb, ho⟩ ⟨ha', hb', ho'⟩ hc
    have hi : ∀ points values wd garbage, s.interpolate fin points values wd garbage
        = s'.interpolate fin points values wd garbage := by
      intro points values wd garbage
      simp only [CubicSpline.interpolate, ha, hb, ho, ha', hb', ho', hc]
    refine ⟨hi, ?_, by simp only [CubicSpline.grid, ha, hb, ho, ha', hb', ho']⟩
    intro points garbage
    cases points <;> simp only [CubicSpline.call, hi]

/-! ### `CubicSplines` -/

def CubicSplines.Alike (fin : K → Bool) (s s' : CubicSplines K) : Prop :=
  (∀ points garbage, s.interpolate fin points garbage = s'.interpolate fin points garbage) ∧
  (∀ points garbage, s.interpolateDiff fin points garbage = s'.interpolateDiff fin points garbage) ∧
  (∀ points garbage, s.call fin points garbage = s'.call fin points garbage) ∧
  s.grid = s'.grid

/-- C74 for `CubicSplines`. -/
theorem C74_cubic_splines (fin : K → Bool) (a b : List K) (orders : List ℕ) (s0 : CubicSplines K)
    (h0 : CubicSplines.new fin a b orders none = .ok s0) :
    HistoryLaw (CubicSplines.setValues fin) (fun v => CubicSplines.new fin a b orders (some v))
      (CubicSplines.Alike fin) s0 := by
  have h1 : b.length = a.length := by
    by_contra hne
    simp [CubicSplines.new, hne] at h0
  have h2 : orders.length = a.length := by
    by_contra hne
    simp [CubicSplines.new, h1, hne] at h0
  have hs0 : s0 = { a := a, b := b, orders := orders } := by
    simp [CubicSplines.new, h1, h2] at h0
    exact h0.symm
  refine historyLaw (fun s => s.a = a ∧ s.b = b ∧ s.orders = orders) (fun s => s.mcoeffs)
    (fun v => match v.shape.getLast? with
      | none => .error .index
      | some n => v.reshape (orders ++ [n]) >>= fun w => if allFinite fin w = false then
          .error (.exception "Trying to interpolate non-finite values")
        else (Filter.filterMcoeffs a b orders w).map some)
    (by rw [hs0]; exact ⟨rfl, rfl, rfl⟩) ?_ ?_ ?_ ?_
  · rintro s v ⟨ha, hb, ho⟩
    simp only [CubicSplines.setValues, ha, hb, ho]
    split
    · exact ⟨ha, hb, ho⟩
    · split
      · exact ⟨ha, hb, ho⟩
      · split
        · exact ⟨ha, hb, ho⟩
        · split
          · exact ⟨ha, hb, ho⟩
          · exact ⟨rfl, rfl, rfl⟩
  · rintro s v ⟨ha, hb, ho⟩
    simp only [CubicSplines.setValues, ha, hb, ho]
    cases v.shape.getLast? with
    | none => exact Or.inl ⟨_, rfl, rfl, rfl⟩
    | some n =>
      simp only []
      cases v.reshape (orders ++ [n]) with
      | error e => exact Or.inl ⟨e, rfl, rfl, rfl⟩
      | ok w =>
        simp only [ok_bind]
        by_cases hf : allFinite fin w = false
        · left; rw [if_pos hf, if_pos hf]; exact ⟨_, rfl, rfl, rfl⟩
        · rw [if_neg hf, if_neg hf]
          cases Filter.filterMcoeffs a b orders w with
          | error e => exact Or.inl ⟨e, rfl, rfl, rfl⟩
          | ok c => exact Or.inr ⟨some c, rfl, rfl, rfl⟩
  · intro v
    rw [hs0]
    simp [CubicSplines.new, h1, h2]
  · rintro s s' ⟨ha, hb, ho⟩ ⟨ha', hb', ho'⟩ hc
    have hk : ∀ points, s.checked fin points = s'.checked fin points := by
      intro points
      simp only [CubicSplines.checked, ha, ha', hc]
    have hi : ∀ points garbage, s.interpolate fin points garbage
        = s'.interpolate fin points garbage := by
      intro points garbage
      simp only [CubicSplines.interpolate, hk, ha, hb, ho, ha', hb', ho']
    refine ⟨hi, ?_, ?_, by simp only [CubicSplines.grid, ha, hb, ho, ha', hb', ho']⟩
    · intro points garbage
      simp only [CubicSplines.interpolateDiff, hk, ha, hb, ho, ha', hb', ho']
    · intro points garbage
      cases points <;> simp only [CubicSplines.call, hi]

/-! ### `LinearSpline` and `LinearSplines` -/

def LinearSpline.Alike (s s' : LinearSpline K) : Prop :=
  (∀ points, s.interpolate points = s'.interpolate points) ∧
  (∀ points, s.call points = s'.call points) ∧ s.grid = s'.grid

/-- C74 for `LinearSpline`. -/
theorem C74_linear_spline (smin smax : List K) (orders : List ℕ) (s0 : LinearSpline K)
    (h0 : LinearSpline.new smin smax orders none = .ok s0) :
    HistoryLaw LinearSpline.setValues (fun v => LinearSpline.new smin smax orders (some v))
      LinearSpline.Alike s0 := by
  have hs0 : s0 = { smin := smin, smax := smax, orders := orders } := by
    simp [LinearSpline.new] at h0
    exact h0.symm
  refine historyLaw (fun s => s.smin = smin ∧ s.smax = smax ∧ s.orders = orders)
    (fun s => s.values) (fun v => (v.reshape orders).map some)
    (by rw [hs0]; exact ⟨rfl, rfl, rfl⟩) ?_ ?_ ?_ ?_
  · rintro s v ⟨ha, hb, ho⟩
    simp only [LinearSpline.setValues]
    split
    · exact ⟨ha, hb, ho⟩
    · exact ⟨ha, hb, ho⟩
  · rintro s v ⟨ha, hb, ho⟩
    simp only [LinearSpline.setValues, ho]
    cases v.reshape orders with
    | error e => exact Or.inl ⟨e, rfl, rfl, rfl⟩
    | ok w => exact Or.inr ⟨some w, rfl, rfl, rfl⟩
  · intro v
    rw [hs0]
    simp [LinearSpline.new]
  · rintro s s' ⟨ha, hb, ho⟩ ⟨ha', hb', ho'⟩ hc
    have hi : ∀ points, s.interpolate points = s'.interpolate points := by
      intro points
      simp only [LinearSpline.interpolate, ha, hb, ho, ha', hb', ho', hc]
    refine ⟨hi, ?_, by simp only [LinearSpline.grid, ha, hb, ho, ha', hb', ho']⟩
    intro points
    cases points <;> simp only [LinearSpline.call, hi]

def LinearSplines.Alike (s s' : LinearSplines K) : Prop :=
  (∀ points, s.interpolate points = s'.interpolate points) ∧
  (∀ points, s.call points = s'.call points) ∧ s.grid = s'.grid

/-- C74 for `LinearSplines`. -/
theorem C74_linear_splines (smin smax : List K) (orders : List ℕ) (s0 : LinearSplines K)
    (h0 : LinearSplines.new smin smax orders none = .ok s0) :
    HistoryLaw LinearSplines.setValues (fun v => LinearSplines.new smin smax orders (some v))
      LinearSplines.Alike s0 := by
  have hs0 : s0 = { smin := smin, smax := smax, orders := orders } := by
    simp [LinearSplines.new] at h0
    exact h0.symm
  refine historyLaw (fun s => s.smin = smin ∧ s.smax = smax ∧ s.orders = orders)
    (fun s => s.mvalues) (fun v => match v.shape.getLast? with
      | none => .error .index
      | some n => (v.reshape (orders ++ [n])).map some)
    (by rw [hs0]; exact ⟨rfl, rfl, rfl⟩) ?_ ?_ ?_ ?_
  · rintro s v ⟨ha, hb, ho⟩
    simp only [LinearSplines.setValues]
    split
    · exact ⟨ha, hb, ho⟩
    · split <;> exact ⟨ha, hb, ho⟩
  · rintro s v ⟨ha, hb, ho⟩
    simp only [LinearSplines.setValues, ho]
    cases v.shape.getLast? with
    | none => exact Or.inl ⟨_, rfl, rfl, rfl⟩
    | some n =>
      simp only []
      cases v.reshape (orders ++ [n]) with
      | error e => exact Or.inl ⟨e, rfl, rfl, rfl⟩
      | ok w => exact Or.inr ⟨some w, rfl, rfl, rfl⟩
  · intro v
    rw [hs0]
    simp [LinearSplines.new]
  · rintro s s' ⟨ha, hb, ho⟩ ⟨ha', hb', ho'⟩ hc
    have hi : ∀ points, s.interpolate points = s'.interpolate points := by
      intro points
      simp only [LinearSplines.interpolate, ha, hb, ho, ha', hb', ho', hc]
    refine ⟨hi, ?_, by simp only [LinearSplines.grid, ha, hb, ho, ha', hb', ho']⟩
    intro points
    cases points <;> simp only [LinearSplines.call, hi]

/-! ### Cases -/

/-- Two values accepted, one rejected (wrong size): the object is the one of the second values. -/
example : LinearSpline.Alike (after LinearSpline.setValues
      (⟨[0], [1], [2], none⟩ : LinearSpline ℚ)
      [⟨[2], fun _ => 5⟩, ⟨[2], fun _ => 7⟩, ⟨[3], fun _ => 9⟩])
    ⟨[0], [1], [2], some ⟨[2], fun _ => 7⟩⟩ :=
  (C74_linear_spline ([0] : List ℚ) [1] [2] _ rfl).last [⟨[2], fun _ => 5⟩] ⟨[2], fun _ => 7⟩
    [⟨[3], fun _ => 9⟩] _ rfl (by
      intro w hw
      simp only [List.mem_cons, List.not_mem_nil, or_false] at hw
      subst hw
      exact ⟨.value, rfl⟩)

/-- A rejected update of a vector-valued cubic spline (values without a last axis). -/
example : CubicSplines.Alike (fun _ => true) (after (CubicSplines.setValues fun _ => true)
      (⟨[0], [1], [2], none, none⟩ : CubicSplines ℚ) [⟨[], fun _ => 5⟩])
    ⟨[0], [1], [2], none, none⟩ :=
  (C74_cubic_splines (fun _ => true) ([0] : List ℚ) [1] [2] _ rfl).none _ (by
      intro w hw
      simp only [List.mem_cons, List.not_mem_nil, or_false] at hw
      subst hw
      exact ⟨.index, rfl⟩)

end Interp.Props
