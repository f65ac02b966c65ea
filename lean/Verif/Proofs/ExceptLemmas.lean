import Verif.Model.Basic

/-! Small facts about `Except` and lists. -/

namespace Interp

@[simp] theorem ok_bind {α β : Type} (a : α) (f : α → Py β) :
    (Except.ok a >>= f : Py β) = f a := rfl

@[simp] theorem pure_eq_ok {α : Type} (a : α) : (pure a : Py α) = Except.ok a := rfl

@[simp] theorem error_bind {α β : Type} (e : Err) (f : α → Py β) :
    (Except.error e >>= f : Py β) = Except.error e := rfl

@[simp] theorem throw_eq_error {α : Type} (e : Err) : (throw e : Py α) = Except.error e := rfl

theorem mapM_ok {α β : Type} (f : α → Py β) (g : α → β) (l : List α)
    (h : ∀ a ∈ l, f a = .ok (g a)) : l.mapM f = .ok (l.map g) := by
  induction l with
  | nil => simp
  | cons a l ih =>
    rw [List.mapM_cons, h a (by simp), ih (fun b hb => h b (by simp [hb]))]
    simp

theorem mapM_ok_elim {α β : Type} (f : α → Py β) (l : List α) (r : List β)
    (h : l.mapM f = .ok r) : ∀ a ∈ l, ∃ b, f a = .ok b ∧ b ∈ r := by
  induction l generalizing r with
  | nil => simp
  | cons a l ih =>
    rw [List.mapM_cons] at h
    rcases ha : f a with e | b
    · rw [ha] at h; cases h
    · rw [ha] at h
      rcases hl : l.mapM f with e | r'
      · rw [hl] at h; cases h
      · rw [hl] at h
        cases h
        intro c hc
        rcases List.mem_cons.1 hc with rfl | hc
        · exact ⟨b, ha, by simp⟩
        · obtain ⟨b', h1, h2⟩ := ih r' hl c hc
          exact ⟨b', h1, by simp [h2]⟩

theorem mapM_error {α β : Type} (f : α → Py β) (l : List α) (e : Err)
    (h : l.mapM f = .error e) : ∃ a ∈ l, f a = .error e := by
  induction l with
  | nil => cases h
  | cons a l ih =>
    rw [List.mapM_cons] at h
    rcases ha : f a with e' | b
    · rw [ha] at h; cases h
      exact ⟨a, by simp, ha⟩
    · rw [ha] at h
      rcases hl : l.mapM f with e' | r'
      · rw [hl] at h; cases h
        obtain ⟨c, hc, hfc⟩ := ih hl
        exact ⟨c, by simp [hc], hfc⟩
      · rw [hl] at h; cases h

theorem mapM_exists_error {α β : Type} (f : α → Py β) (l : List α) (a : α) (ha : a ∈ l) (e : Err)
    (h : f a = .error e) : ∃ e', l.mapM f = .error e' := by
  rcases hl : l.mapM f with e' | r
  · exact ⟨e', rfl⟩
  · obtain ⟨b, hb, _⟩ := mapM_ok_elim f l r hl a ha
    rw [h] at hb; cases hb

theorem wrapIndex_of_lt {n : ℕ} {i : ℤ} (h0 : 0 ≤ i) (h1 : i < n) :
    wrapIndex n i = some i.toNat := by
  simp [wrapIndex, h0, h1]

theorem listRead_of_lt {α : Type} (l : List α) (i : ℤ) (h0 : 0 ≤ i) (h1 : i < l.length) :
    listRead l i = .ok (l[i.toNat]'(by omega)) := by
  have h : i.toNat < l.length := by omega
  simp [listRead, wrapIndex_of_lt h0 h1, List.getElem?_eq_getElem h]

theorem listRead_getD {α : Type} (l : List α) (i : ℤ) (d : α) (h0 : 0 ≤ i) (h1 : i < l.length) :
    listRead l i = .ok (l.getD i.toNat d) := by
  have h : i.toNat < l.length := by omega
  rw [listRead_of_lt l i h0 h1, List.getD_eq_getElem?_getD, List.getElem?_eq_getElem h]; rfl

theorem inShape_length : ∀ {sh idx : List ℕ}, InShape sh idx → idx.length = sh.length
  | [], [], _ => rfl
  | [], _ :: _, h => h.elim
  | _ :: _, [], h => h.elim
  | _ :: sh, _ :: idx, h => by simp [inShape_length h.2]

theorem wrapIndices_ok : ∀ {sh : List ℕ} {idx : List ℤ} (js : List ℕ),
    idx = js.map Int.ofNat → InShape sh js → wrapIndices sh idx = some js
  | [], idx, [], h, _ => by subst h; rfl
  | [], _, _ :: _, _, h => h.elim
  | _ :: _, _, [], _, h => h.elim
  | n :: sh, idx, j :: js, h, hs => by
    subst h
    have h1 : wrapIndex n (Int.ofNat j) = some j := by
      exact wrapIndex_of_lt (i := Int.ofNat j) (Int.natCast_nonneg j) (Int.ofNat_lt.2 hs.1)
    rw [List.map_cons, wrapIndices, h1, wrapIndices_ok js rfl hs.2]

theorem NdArray.read_ok {K : Type} (A : NdArray K) (js : List ℕ) (h : InShape A.shape js) :
    A.read (js.map Int.ofNat) = .ok (A.get js) := by
  rw [NdArray.read, wrapIndices_ok js rfl h]; rfl

theorem NdArray.write_ok {K : Type} (A : NdArray K) (js : List ℕ) (v : K) (h : InShape A.shape js) :
    A.write (js.map Int.ofNat) v
      = .ok { A with get := fun k => if k = js then v else A.get k } := by
  rw [NdArray.write, wrapIndices_ok js rfl h]; rfl

theorem inShape_append {s1 s2 i1 i2 : List ℕ} (h1 : InShape s1 i1) (h2 : InShape s2 i2) :
    InShape (s1 ++ s2) (i1 ++ i2) := by
  induction s1 generalizing i1 with
  | nil => cases i1 with
    | nil => simpa using h2
    | cons _ _ => exact h1.elim
  | cons n s ih => cases i1 with
    | nil => exact h1.elim
    | cons i is => exact ⟨h1.1, ih h1.2⟩

theorem inShape_cons {n i : ℕ} {s is : List ℕ} : InShape (n :: s) (i :: is) ↔ i < n ∧ InShape s is :=
  Iff.rfl

theorem inShape_nil_iff {idx : List ℕ} : InShape [] idx ↔ idx = [] := by
  cases idx <;> simp [InShape]

theorem inShape_cons_iff {n : ℕ} {sh idx : List ℕ} :
    InShape (n :: sh) idx ↔ ∃ i is, idx = i :: is ∧ i < n ∧ InShape sh is := by
  cases idx <;> simp [InShape]

theorem bsearch_le {K : Type} [LT K] [DecidableLT K] (a : List K) (v : K) (lo hi : ℕ)
    (h : lo ≤ hi) : bsearch a v lo hi ≤ hi := by
  fun_induction bsearch a v lo hi with
  | case1 lo hi hlt mid y hy hyv ih => exact ih (by omega)
  | case2 lo hi hlt mid y hy hyv ih => exact (ih (by omega)).trans (by omega)
  | case3 lo hi hlt mid hy ih => exact (ih (by omega)).trans (by omega)
  | case4 lo hi hlt => omega

theorem searchsorted_le {K : Type} [LT K] [DecidableLT K] (a : List K) (v : K) :
    searchsorted a v ≤ a.length := bsearch_le a v 0 _ (Nat.zero_le _)

end Interp
