import Verif.Proofs.CodegenTop

/-! Vectorised and single-point programs, from the first to the last statement. -/

set_option linter.unusedSectionVars false
set_option linter.unusedSimpArgs false

namespace Interp.Codegen
open Interp.Ref

variable {K : Type} [Add K] [Sub K] [Mul K] [Div K] [Neg K] [Zero K] [One K] [NatCast K]
  [IntCast K] [LT K] [DecidableLT K] [BEq K] [IntFloor K]

variable {k : ℕ} {G : List (GridDim K)} {C : NdArray K} {vec : Bool} {m : ℕ}
  {orders : Option (List (List ℕ))}

theorem take_append_ne (pre tail idx : List ℕ) (h : idx.take pre.length ≠ pre) :
    idx ≠ pre ++ tail := by
  rintro rfl
  simp at h

/-- The reductions of the vectorised template; also those of the single-point template for
vector-valued data. -/
theorem run_reduceVec (h : GoodCall k G C vec m orders) (c : Ctx K) (hcC : c.C = C) (cfg : Cfg)
    (hd : cfg.d = G.length) (hk : cfg.k = k) (hv : cfg.vectorValued = vec)
    (ho : cfg.orders = orders) (xs : List K) (hx : xs.length = G.length) (s : State K)
    (hD : ∀ i (hi : i < G.length) (hx : i < xs.length), Loc G[i] xs[i] (s.dims i) ∧
      HasPhi k (axisOrders orders i) G[i] xs[i] (s.dims i))
    (hnv : vec = true → s.nVals = some m) (A : NdArray K) (hA : s.out = some A)
    (hsh : ∀ tail, InShape (outRest vec m orders) tail → InShape A.shape (c.pre ++ tail)) :
    ∃ s' A', run c (genReduceVec cfg) s = .ok (s', .next) ∧ s'.dims = s.dims ∧
      s'.nVals = s.nVals ∧ s'.out = some A' ∧
      RowDone c.pre (outRest vec m orders) (plainEntry k G C vec orders xs) A A' := by
  subst hcC
  cases vec with
  | true =>
    have hnv' := hnv rfl
    cases orders with
    | none =>
      have hval := fun ix hix => h.value s.dims xs hx hD ix (fun _ => hix) none
        (List.replicate G.length 0) (Or.inl ⟨rfl, rfl, rfl⟩)
      obtain ⟨A', h1, h2, h3, h4⟩ := storeCompLoop_ok c s.dims
        (getValues G.length true (k + 1) none)
        (fun ix => evalAt k G (List.replicate G.length 0) xs (fun r => c.C.get (r ++ [ix])))
        (List.range m) A (fun ix hix => by simpa using hval ix (by simpa using hix))
        (fun ix hix => hsh [ix] ⟨by simpa using hix, trivial⟩)
      refine ⟨{ s with out := some A' }, A', ?_, rfl, rfl, rfl, h2, ?_, ?_⟩
      · simp only [genReduceVec, hv, if_true, ho, hd, hk]
        apply run_one
        simp only [exec, stepDim, hnv', State.getOut, hA, var, pure_eq_ok, ok_bind, h1]
      · intro tail ht
        simp only [outRest, if_true, Option.map_none, Option.toList_none, List.append_nil] at ht
        obtain ⟨ix, r, rfl, hix, hr⟩ := inShape_cons_iff.1 ht
        rw [inShape_nil_iff] at hr
        subst hr
        rw [h3 ix (by simpa using hix)]
        simp [plainEntry]
      · intro idx hidx
        exact h4 idx (fun ix _ => take_append_ne _ _ _ hidx)
    | some os =>
      have hval := fun ix hix oo hoo => h.value s.dims xs hx hD ix (fun _ => hix) (some oo) oo
        (Or.inr ⟨os, rfl, hoo, rfl⟩)
      obtain ⟨vals', A', h1, h2, h3, h4⟩ := storeCompOrdersLoop_ok c s.dims os
        (fun oo => getValues G.length true (k + 1) (some oo))
        (fun ix oo => evalAt k G oo xs (fun r => c.C.get (r ++ [ix])))
        (fun ix p hp q hq hpq => h.names os rfl p hp q hq hpq _ _ hx)
        (List.range m) s.vals A
        (fun ix hix oo hoo => by simpa using hval ix (by simpa using hix) oo hoo)
        (fun ix hix t ht => hsh [ix, t] ⟨by simpa using hix, ht, trivial⟩)
      refine ⟨{ s with out := some A', vals := vals' }, A', ?_, rfl, rfl, rfl, h2, ?_, ?_⟩
      · simp only [genReduceVec, hv, if_true, ho, hd, hk]
        apply run_one
        simp only [exec, stepDim, hnv', State.getOut, hA, var, pure_eq_ok, ok_bind, h1]
      · intro tail ht
        simp only [outRest, if_true, Option.map_some, Option.toList_some] at ht
        obtain ⟨ix, r, rfl, hix, hr⟩ := inShape_cons_iff.1 ht
        obtain ⟨t, r, rfl, ht', hr⟩ := inShape_cons_iff.1 hr
        rw [inShape_nil_iff] at hr
        subst hr
        rw [h3 ix (by simpa using hix) t ht']
        simp [plainEntry]
      · intro idx hidx
        exact h4 idx (fun ix _ _ => take_append_ne _ _ _ hidx)
  | false =>
    cases orders with
    | none =>
      have hval := h.value s.dims xs hx hD 0 (fun h => by cases h) none
        (List.replicate G.length 0) (Or.inl ⟨rfl, rfl, rfl⟩)
      simp only [Bool.false_eq_true, if_false] at hval
      have hw := NdArray.write_ok A c.pre
        (evalAt k G (List.replicate G.length 0) xs (fun r => c.C.get (r ++ [])))
        (by simpa using hsh [] (by simp [outRest, InShape]))
      obtain ⟨V, hV⟩ : ∃ V, V = evalAt k G (List.replicate G.length 0) xs
        (fun r => c.C.get (r ++ [])) := ⟨_, rfl⟩
      rw [← hV] at hw hval
      refine ⟨{ s with out := some ⟨A.shape, fun i => if i = c.pre then V else A.get i⟩ }, _, ?_,
        rfl, rfl, rfl, rfl, ?_, ?_⟩
      · simp only [genReduceVec, hv, Bool.false_eq_true, if_false, ho, hd, hk]
        apply run_one
        simp only [exec, stepDim, State.getOut, hA, pure_eq_ok, ok_bind, hval, hw]
      · intro tail ht
        simp only [outRest, Bool.false_eq_true, if_false, Option.map_none, Option.toList_none,
          List.append_nil, inShape_nil_iff] at ht
        subst ht
        simp [plainEntry, hV]
      · intro idx hidx
        have : idx ≠ c.pre := by
          rintro rfl; simp at hidx
        simp [this]
    | some os =>
      have hval := fun oo hoo => h.value s.dims xs hx hD 0 (fun h => by cases h) (some oo) oo
        (Or.inr ⟨os, rfl, hoo, rfl⟩)
      simp only [Bool.false_eq_true, if_false] at hval
      have h1 := run_assigns c (fun oo => getValues G.length false (k + 1) (some oo))
        (fun oo => evalAt k G oo xs (fun r => c.C.get (r ++ []))) os s hval
      obtain ⟨A', h2, h3, h4, h5⟩ := run_storeVals c
        (fun t => evalAt k G (os.getD t []) xs (fun r => c.C.get (r ++ []))) (os.map valName) 0
        { s with vals := (os.map fun oo => (valName oo,
          evalAt k G oo xs (fun r => c.C.get (r ++ [])))).reverse ++ s.vals } A hA
        (fun t ht => by
          have ht' : t < os.length := by simpa using ht
          rw [List.getElem_map, Nat.zero_add]
          rw [lookup_assigned os (fun oo => evalAt k G oo xs (fun r => c.C.get (r ++ []))) s.vals
            (fun p hp q hq hpq => h.names os rfl p hp q hq hpq _ _ hx) os[t] (List.getElem_mem ht'),
            List.getD_eq_getElem?_getD, List.getElem?_eq_getElem ht']
          rfl)
        (fun t ht => by
          rw [Nat.zero_add]
          exact hsh [t] ⟨by simpa using ht, trivial⟩)
      refine ⟨{ s with
          vals := (os.map fun oo => (valName oo,
            evalAt k G oo xs (fun r => c.C.get (r ++ [])))).reverse ++ s.vals
          out := some A' }, A', ?_, rfl, rfl, rfl, h3, ?_, ?_⟩
      · simp only [genReduceVec, hv, Bool.false_eq_true, if_false, ho, hd, hk]
        rw [run_append_next c _ _ _ _ h1, ← h2]
        congr 1
        apply List.ext_getElem <;> simp
      · intro tail ht
        simp only [outRest, Bool.false_eq_true, if_false, Option.map_some, Option.toList_some,
          List.nil_append] at ht
        obtain ⟨t, r, rfl, ht', hr⟩ := inShape_cons_iff.1 ht
        rw [inShape_nil_iff] at hr
        subst hr
        have := h4 t (by simpa using ht')
        rw [Nat.zero_add] at this
        rw [this]
        simp [plainEntry]
      · intro idx hidx
        exact h5 idx (fun t _ => take_append_ne _ _ _ hidx)

/-! ### Constant mode, point outside -/

theorem run_coords_outside (c : Ctx K) (guard : GuardBody) (bounds : Bool)
    (hx : c.x.length = c.grid.length) (hb : ∀ g ∈ c.grid, HasBounds bounds g)
    (i0 : ℕ) (hi0 : i0 < c.grid.length) (hout : isOutside c.grid[i0] (c.x[i0]'(by omega)) = true)
    (hfirst : ∀ i (hi : i < i0), isOutside (c.grid[i]'(by omega)) (c.x[i]'(by omega)) = false)
    (s : State K) (hp : ∀ i (hi : i < c.grid.length), Prep bounds c.grid[i] (s.dims i)) :
    ∃ s1, Frame s s1 ∧ (∀ i (hi : i < c.grid.length), Prep bounds c.grid[i] (s1.dims i)) ∧
      outside (s1.dims i0) = .ok true ∧
      (∀ i (hi : i < c.grid.length), i ≤ i0 → (s1.dims i).x = some (c.x[i]'(by omega))) ∧
      run c ((List.range c.grid.length).flatMap (coordBlock "constant" guard)) s
        = run c (Stmt.constGuard i0 guard ::
            ((List.range' (i0 + 1) (c.grid.length - (i0 + 1))).flatMap
              (coordBlock "constant" guard))) s1 := by
  have hsplit : List.range c.grid.length
      = List.range i0 ++ i0 :: List.range' (i0 + 1) (c.grid.length - (i0 + 1)) := by
    rw [List.range_eq_range', List.range_eq_range',
      show c.grid.length = i0 + (1 + (c.grid.length - (i0 + 1))) by omega, ← List.range'_append_1]
    congr 1
    rw [show i0 + (1 + (c.grid.length - (i0 + 1))) - (i0 + 1) = c.grid.length - (i0 + 1) by omega,
      ← List.range'_append_1]
    simp
  obtain ⟨s1, h1, h2, h2', h3⟩ := phase' c i0 (coordBlock "constant" guard)
    (fun i v => ∀ hi : i < c.grid.length, Prep bounds c.grid[i] v)
    (fun i v => ∀ (hi : i < c.grid.length) (hx : i < c.x.length), Prep bounds c.grid[i] v ∧
        v.x = some c.x[i])
    (by
      intro i hi s hs
      obtain ⟨v, hv1, hv2, hv3⟩ := run_coordBlock_inside c "constant" guard bounds i (by omega)
        (by omega) (fun h => hb _ (List.getElem_mem _)) (fun h => hfirst i hi) s (hs (by omega))
      refine ⟨v, hv1, fun _ _ => ⟨hv2, ?_⟩⟩
      rw [hv3]; rfl) s (fun i hi _ => hp i (by omega))
  have hx0 : i0 < c.x.length := by omega
  have h4 := run_loadX c i0 hx0 s1
  set v1 : DimVars K := { s1.dims i0 with x := some c.x[i0] } with hv1
  have hp1 : Prep bounds c.grid[i0] v1 := by
    have : Prep bounds c.grid[i0] (s1.dims i0) := by rw [h2' i0 le_rfl]; exact hp i0 hi0
    exact this.congr rfl rfl rfl rfl rfl (fun _ => rfl)
  obtain ⟨ha, hb'⟩ := hp1.ab (hb _ (List.getElem_mem hi0))
  refine ⟨s1.setDim i0 v1, h3.trans (frame_setDim _ _ _), ?_, ?_, ?_, ?_⟩
  · intro i hi
    rcases lt_trichotomy i i0 with hlt | rfl | hgt
    · rw [setDim_other _ _ _ _ (by omega)]; exact (h2 i hlt hi (by omega)).1
    · rw [setDim_same]; exact hp1
    · rw [setDim_other _ _ _ _ (by omega), h2' i (by omega)]; exact hp i hi
  · rw [setDim_same]
    have hxv : v1.x = some c.x[i0] := rfl
    simp only [outside, ha, hb', hxv, var, pure_eq_ok, ok_bind]
    exact congrArg _ hout
  · intro i hi hle
    rcases lt_or_eq_of_le hle with hlt | rfl
    · rw [setDim_other _ _ _ _ (by omega)]; exact (h2 i hlt hi (by omega)).2
    · rw [setDim_same]
  · rw [hsplit, List.flatMap_append, run_append_next c _ _ _ _ h1, List.flatMap_cons, coordBlock,
      List.append_assoc, List.append_assoc, run_append_next c _ _ _ _ h4]
    simp

/-! ### One row of the vectorised program -/

theorem any_zipWith_outside (G : List (GridDim K)) (x : List K) (hx : x.length = G.length) :
    (List.zipWith isOutside G x).any id = true ↔
      ∃ i, ∃ hi : i < G.length, isOutside G[i] (x[i]'(by omega)) = true := by
  rw [List.any_eq_true]
  constructor
  · rintro ⟨b, hb, hb'⟩
    obtain ⟨i, hi, rfl⟩ := List.getElem_of_mem hb
    rw [List.getElem_zipWith] at hb'
    exact ⟨i, by simp at hi; omega, hb'⟩
  · rintro ⟨i, hi, h⟩
    refine ⟨_, List.getElem_mem (n := i) (by simp; omega), ?_⟩
    rw [List.getElem_zipWith]
    exact h

theorem evalMode_eq (mode : String) (oo : List ℕ) (x : List K) (hx : x.length = G.length)
    (c : List ℕ → K) (hin : mode = "constant" → (List.zipWith isOutside G x).any id = false) :
    evalMode k mode G oo x c = evalAt k G oo (List.zipWith (modeX mode) G x) c := by
  unfold evalMode
  by_cases hn : mode = "nearest"
  · rw [if_pos hn]
    congr 1
    congr 1
    funext g y
    simp [modeX, hn]
  · have hz : List.zipWith (modeX mode) G x = x := by
      apply List.ext_getElem
      · simp; omega
      · intro i h1 h2
        simp [modeX, hn]
    rw [if_neg hn, hz]
    by_cases hc : mode = "constant"
    · rw [if_pos hc, hin hc]; simp
    · rw [if_neg hc]

/-- The statements executed for one point (shared by both templates): coordinates inside, location,
basis functions. -/
theorem run_upto_basis (h : GoodCall k G C vec m orders) (c : Ctx K) (hcG : c.grid = G)
    (cfg : Cfg) (hd : cfg.d = G.length) (ht : cfg.gridTypes = G.map GridDim.gtype)
    (hk : cfg.k = k) (ho : cfg.orders = orders) (guard : GuardBody) (bounds : Bool)
    (hx : c.x.length = G.length)
    (hb : cfg.extrap = "nearest" ∨ cfg.extrap = "constant" → ∀ g ∈ G, HasBounds bounds g)
    (hin : cfg.extrap = "constant" → (List.zipWith isOutside G c.x).any id = false)
    (s : State K) (hp : ∀ i (hi : i < G.length), Prep bounds G[i] (s.dims i)) :
    ∃ s', (∀ rest, run c (genCoords cfg guard ++ genLocate cfg ++
        (List.range cfg.d).flatMap (fun i => (axisOrders orders i).map
          fun l => blendStmt cfg.k l i) ++ rest) s = run c rest s') ∧
      Frame s s' ∧
      (∀ i (hi : i < G.length), Prep bounds G[i] (s'.dims i)) ∧
      (∀ i (hi : i < G.length) (hx : i < (List.zipWith (modeX cfg.extrap) G c.x).length),
        Loc G[i] (List.zipWith (modeX cfg.extrap) G c.x)[i] (s'.dims i) ∧
        HasPhi k (axisOrders orders i) G[i] (List.zipWith (modeX cfg.extrap) G c.x)[i]
          (s'.dims i)) := by
  subst hcG
  set xs := List.zipWith (modeX cfg.extrap) c.grid c.x with hxs
  have hxl : xs.length = c.grid.length := by simp [hxs]; omega
  have hxi : ∀ i (hi : i < c.grid.length) (hx : i < c.x.length) (h' : i < xs.length),
      xs[i] = modeX cfg.extrap c.grid[i] c.x[i] := by
    intro i hi hx h'; simp [hxs]
  obtain ⟨s1, h1, h2, h3⟩ := run_coords_inside c cfg.extrap guard bounds hx hb
    (fun hc i hi hxi => by
      have h0 := hin hc
      by_contra hcon
      have hcon' : isOutside c.grid[i] c.x[i] = true := by simpa using hcon
      have := (any_zipWith_outside c.grid c.x hx).2 ⟨i, hi, hcon'⟩
      rw [h0] at this; cases this) s hp
  obtain ⟨s2, h4, h5, h6⟩ := run_locate c cfg bounds hd ht h.wf xs hxl s1 (fun i hi hx' => by
    have := h2 i hi (by omega)
    rw [hxi i hi (by omega) hx']
    exact this)
  obtain ⟨s3, h7, h8, h9⟩ := run_basis c k bounds (axisOrders orders) h.axisOrdersOk xs hxl s2
    (fun i hi hx' hk1 hmem => by
      by_cases hon : orders = none
      · subst hon; simp [axisOrders] at hmem
      · exact h.deriv hk1 hon _ (List.getElem_mem hi) _) h5
  refine ⟨s3, ?_, h3.trans (h6.trans h9), fun i hi => (h8 i hi (by omega)).1, fun i hi hx' =>
    (h8 i hi hx').2⟩
  intro rest
  rw [genCoords_eq, hd, List.append_assoc, List.append_assoc, run_append_next c _ _ _ _ h1,
    run_append_next c _ _ _ _ h4, hk, run_append_next c _ _ _ _ h7]

theorem fillZero_row (A : NdArray K) (nn N : ℕ) (rest : List ℕ) (hA : A.shape = N :: rest)
    (hnn : nn < N) : ∃ A', fillZero A [nn] = .ok A' ∧ A'.shape = A.shape ∧
      (∀ tail, A'.get (nn :: tail) = 0) ∧
      (∀ idx, idx.take 1 ≠ [nn] → A'.get idx = A.get idx) := by
  refine ⟨{ A with get := fun idx => if idx.take 1 = [nn] then 0 else A.get idx }, ?_, rfl, ?_, ?_⟩
  · simp [fillZero, hA, InShape, hnn]
  · intro tail; simp
  · intro idx h; simp [h]

theorem rowEntry_inside (mode : String) (x : List K) (hx : x.length = G.length)
    (hin : mode = "constant" → (List.zipWith isOutside G x).any id = false) (tail : List ℕ) :
    rowEntry k mode G C vec orders x tail
      = plainEntry k G C vec orders (List.zipWith (modeX mode) G x) tail := by
  simp only [rowEntry, plainEntry]
  exact evalMode_eq mode _ x hx _ hin

/-- First dimension in which a point is outside. -/
theorem first_outside (G : List (GridDim K)) (x : List K) (hx : x.length = G.length)
    (h : (List.zipWith isOutside G x).any id = true) :
    ∃ i, ∃ hi : i < G.length, isOutside G[i] (x[i]'(by omega)) = true ∧
      ∀ j (hj : j < i), isOutside (G[j]'(by omega)) (x[j]'(by omega)) = false := by
  classical
  have hex := (any_zipWith_outside G x hx).1 h
  refine ⟨Nat.find hex, (Nat.find_spec hex).1, (Nat.find_spec hex).2, ?_⟩
  intro j hj
  have := Nat.find_min hex hj
  by_contra hcon
  exact this ⟨by have := (Nat.find_spec hex).1; omega, by simpa using hcon⟩

theorem run_body (h : GoodCall k G C vec m orders) (c : Ctx K) (hcG : c.grid = G) (hcC : c.C = C)
    (nn N : ℕ) (hpre : c.pre = [nn]) (hnn : nn < N)
    (cfg : Cfg) (hd : cfg.d = G.length) (ht : cfg.gridTypes = G.map GridDim.gtype)
    (hk : cfg.k = k) (ho : cfg.orders = orders) (hv : cfg.vectorValued = vec)
    (hx : c.x.length = G.length) (s : State K)
    (hp : ∀ i (hi : i < G.length), Prep true G[i] (s.dims i))
    (hnv : vec = true → s.nVals = some m) (A : NdArray K) (hA : s.out = some A)
    (hsh : A.shape = N :: outRest vec m orders) :
    ∃ s' f A', run c (genCoords cfg .zeroContinue ++ genLocate cfg ++
        (List.range cfg.d).flatMap (fun i => (axisOrders orders i).map
          fun l => blendStmt cfg.k l i) ++ genReduceVec cfg) s = .ok (s', f) ∧
      (∀ i (hi : i < G.length), Prep true G[i] (s'.dims i)) ∧
      (vec = true → s'.nVals = some m) ∧ s'.out = some A' ∧
      RowDone [nn] (outRest vec m orders) (rowEntry k cfg.extrap G C vec orders c.x) A A' := by
  by_cases hout : cfg.extrap = "constant" ∧ (List.zipWith isOutside G c.x).any id = true
  · obtain ⟨hmode, hout⟩ := hout
    obtain ⟨i0, hi0, hi1, hi2⟩ := first_outside G c.x hx hout
    subst hcG
    obtain ⟨s1, h1, h2, h3, _, h4⟩ := run_coords_outside c .zeroContinue true hx
      (fun g _ => Or.inl rfl) i0 hi0 hi1 hi2 s hp
    obtain ⟨A', hf1, hf2, hf3, hf4⟩ := fillZero_row A nn N _ hsh hnn
    have hex : exec c (Stmt.constGuard i0 .zeroContinue) s1
        = .ok ({ s1 with out := some A' }, .cont) := by
      have : s1.out = some A := h1.1.trans hA
      simp only [exec, stepDim, h3, ok_bind, if_true, State.getOut, this, pure_eq_ok, hpre, hf1]
    refine ⟨{ s1 with out := some A' }, .cont, A', ?_, h2, fun hv => h1.2.1.trans (hnv hv), rfl,
      hf2, ?_, ?_⟩
    · rw [List.append_assoc, List.append_assoc]
      apply run_append_exit
      · intro h; cases h
      · rw [genCoords_eq, hd, hmode, h4, run, hex]
        rfl
    · intro tail _
      rw [List.singleton_append, hf3]
      simp [rowEntry, evalMode, hmode, hout]
    · intro idx hidx
      exact hf4 idx hidx
  · have hin : cfg.extrap = "constant" → (List.zipWith isOutside G c.x).any id = false := by
      intro hc
      by_contra hcon
      exact hout ⟨hc, by simpa using hcon⟩
    obtain ⟨s1, h1, h2, h3, h4⟩ := run_upto_basis h c hcG cfg hd ht hk ho .zeroContinue true hx
      (fun _ g _ => Or.inl rfl) hin s hp
    obtain ⟨s2, A', g1, g2, g3, g4, g5⟩ := run_reduceVec h c hcC cfg hd hk hv ho
      (List.zipWith (modeX cfg.extrap) G c.x) (by simp; omega) s1 h4
      (fun hv => h2.2.1.trans (hnv hv)) A (h2.1.trans hA)
      (by
        intro tail htail
        rw [hsh, hpre]
        exact ⟨hnn, htail⟩)
    refine ⟨s2, .next, A', ?_, ?_, ?_, g4, ?_⟩
    · rw [h1, g1]
    · intro i hi; rw [g2]; exact h3 i hi
    · intro hv; rw [g3]; exact h2.2.1.trans (hnv hv)
    · rw [hpre] at g5
      refine ⟨g5.1, fun tail htail => ?_, g5.2.2⟩
      rw [g5.2.1 tail htail, rowEntry_inside cfg.extrap c.x hx hin]

end Interp.Codegen
