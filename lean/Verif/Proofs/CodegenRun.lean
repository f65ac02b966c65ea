import Verif.Proofs.CodegenExpr

/-! Execution of the blocks of a generated program. -/

set_option linter.unusedSectionVars false
set_option linter.unusedSimpArgs false

namespace Interp.Codegen
open Interp.Ref

variable {K : Type} [Add K] [Sub K] [Mul K] [Div K] [Neg K] [Zero K] [One K] [NatCast K]
  [IntCast K] [LT K] [DecidableLT K] [BEq K] [IntFloor K]

/-! ### Sequencing -/

theorem run_append_next (c : Ctx K) (l1 l2 : List Stmt) (s s' : State K)
    (h : run c l1 s = .ok (s', .next)) : run c (l1 ++ l2) s = run c l2 s' := by
  induction l1 generalizing s with
  | nil => simp only [run, pure_eq_ok, Except.ok.injEq, Prod.mk.injEq, and_true] at h; simp [h]
  | cons st l ih =>
    simp only [run, List.cons_append] at h ⊢
    rcases he : exec c st s with e | ⟨s1, f⟩
    · rw [he] at h; cases h
    · rw [he] at h
      simp only [ok_bind] at h ⊢
      cases f with
      | next => exact ih s1 h
      | cont => simp at h
      | ret v => simp at h

theorem run_append_exit (c : Ctx K) (l1 l2 : List Stmt) (s s' : State K) (f : Flow K)
    (hf : f ≠ .next) (h : run c l1 s = .ok (s', f)) : run c (l1 ++ l2) s = .ok (s', f) := by
  induction l1 generalizing s with
  | nil =>
    simp only [run, pure_eq_ok, Except.ok.injEq, Prod.mk.injEq] at h
    exact (hf h.2.symm).elim
  | cons st l ih =>
    simp only [run, List.cons_append] at h ⊢
    rcases he : exec c st s with e | ⟨s1, f1⟩
    · rw [he] at h; cases h
    · rw [he] at h
      simp only [ok_bind] at h ⊢
      cases f1 with
      | next => exact ih s1 h
      | cont => simpa using h
      | ret v => simpa using h

/-- Everything except the per-dimension variables is unchanged. -/
def Frame (s s' : State K) : Prop := s'.out = s.out ∧ s'.nVals = s.nVals ∧ s'.vals = s.vals

theorem Frame.refl (s : State K) : Frame s s := ⟨rfl, rfl, rfl⟩

theorem Frame.trans {s1 s2 s3 : State K} (h : Frame s1 s2) (h' : Frame s2 s3) : Frame s1 s3 :=
  ⟨h'.1.trans h.1, h'.2.1.trans h.2.1, h'.2.2.trans h.2.2⟩

theorem setDim_same (s : State K) (i : ℕ) (v : DimVars K) : (s.setDim i v).dims i = v := by
  simp [State.setDim]

theorem setDim_other (s : State K) (i j : ℕ) (v : DimVars K) (h : j ≠ i) :
    (s.setDim i v).dims j = s.dims j := by
  simp [State.setDim, h]

theorem setDim_setDim (s : State K) (i : ℕ) (v w : DimVars K) :
    (s.setDim i v).setDim i w = s.setDim i w := by
  simp only [State.setDim]
  congr 1
  funext j
  by_cases h : j = i <;> simp [h]

theorem setDim_self (s : State K) (i : ℕ) : s.setDim i (s.dims i) = s := by
  simp only [State.setDim]
  cases s
  congr 1
  funext j
  by_cases h : j = i <;> simp [h]

theorem frame_setDim (s : State K) (i : ℕ) (v : DimVars K) : Frame s (s.setDim i v) :=
  ⟨rfl, rfl, rfl⟩

/-- A template loop `for i in range(d)` whose body only changes the variables of dimension `i`. -/
theorem phase' (c : Ctx K) (d : ℕ) (blk : ℕ → List Stmt) (P Q : ℕ → DimVars K → Prop)
    (h : ∀ i < d, ∀ s : State K, P i (s.dims i) →
      ∃ v, run c (blk i) s = .ok (s.setDim i v, .next) ∧ Q i v)
    (s : State K) (hs : ∀ i < d, P i (s.dims i)) :
    ∃ s', run c ((List.range d).flatMap blk) s = .ok (s', .next) ∧ (∀ i < d, Q i (s'.dims i)) ∧
      (∀ i, d ≤ i → s'.dims i = s.dims i) ∧ Frame s s' := by
  have key : ∀ m ≤ d, ∃ s', run c ((List.range m).flatMap blk) s = .ok (s', .next) ∧
      (∀ i < m, Q i (s'.dims i)) ∧ (∀ i, m ≤ i → s'.dims i = s.dims i) ∧ Frame s s' := by
    intro m
    induction m with
    | zero => intro _; exact ⟨s, by simp [run], by simp, by simp, Frame.refl s⟩
    | succ m ih =>
      intro hm
      obtain ⟨s1, h1, h2, h3, h4⟩ := ih (by omega)
      obtain ⟨v, hv, hq⟩ := h m (by omega) s1 (by rw [h3 m le_rfl]; exact hs m (by omega))
      refine ⟨s1.setDim m v, ?_, ?_, ?_, h4.trans (frame_setDim _ _ _)⟩
      · rw [List.range_succ, List.flatMap_append, run_append_next c _ _ _ _ h1]
        simpa using hv
      · intro i hi
        rcases Nat.lt_succ_iff_lt_or_eq.1 hi with h | h
        · rw [setDim_other _ _ _ _ (by omega)]; exact h2 i h
        · subst h; rw [setDim_same]; exact hq
      · intro i hi
        rw [setDim_other _ _ _ _ (by omega)]; exact h3 i (by omega)
  exact key d le_rfl

theorem phase (c : Ctx K) (d : ℕ) (blk : ℕ → List Stmt) (P Q : ℕ → DimVars K → Prop)
    (h : ∀ i < d, ∀ s : State K, P i (s.dims i) →
      ∃ v, run c (blk i) s = .ok (s.setDim i v, .next) ∧ Q i v)
    (s : State K) (hs : ∀ i < d, P i (s.dims i)) :
    ∃ s', run c ((List.range d).flatMap blk) s = .ok (s', .next) ∧ (∀ i < d, Q i (s'.dims i)) ∧
      Frame s s' := by
  obtain ⟨s', h1, h2, _, h4⟩ := phase' c d blk P Q h s hs
  exact ⟨s', h1, h2, h4⟩

theorem exec_dim (c : Ctx K) (st : Stmt) (i : ℕ) (f : DimVars K → Py (DimVars K)) (s : State K)
    (v : DimVars K) (h : stepDim c st = some (i, f)) (hf : f (s.dims i) = .ok v) :
    exec c st s = .ok (s.setDim i v, .next) := by
  unfold exec
  rw [h]
  simp [hf]

theorem run_one (c : Ctx K) (st : Stmt) (s s' : State K) (h : exec c st s = .ok (s', .next)) :
    run c [st] s = .ok (s', .next) := by
  simp [run, h]

/-! ### The invariants -/

/-- Grid parameters have been read. -/
def Prep (bounds : Bool) (g : GridDim K) (v : DimVars K) : Prop :=
  match g with
  | .uniform a b n => v.a = some a ∧ v.b = some b ∧ v.n = some n ∧
      v.delta = some (((n : K) - 1) / (b - a))
  | .array gc => v.gc = some gc ∧ v.N = some (gc.length : ℤ) ∧
      (bounds = true → v.a = some (lo (.array gc)) ∧ v.b = some (hi (.array gc)))

/-- The axis has its bounds in local variables `a_i`, `b_i`. -/
def HasBounds (bounds : Bool) (g : GridDim K) : Prop := bounds = true ∨ g.gtype = .uniform

theorem Prep.ab {bounds : Bool} {g : GridDim K} {v : DimVars K} (h : Prep bounds g v)
    (hb : HasBounds bounds g) : v.a = some (lo g) ∧ v.b = some (hi g) := by
  cases g with
  | uniform a b n => exact ⟨h.1, h.2.1⟩
  | array gc =>
    rcases hb with hb | hb
    · exact h.2.2 hb
    · cases hb

/-- Variables that the later phases do not touch. -/
theorem Prep.congr {bounds : Bool} {g : GridDim K} {v v' : DimVars K} (h : Prep bounds g v)
    (ha : v'.a = v.a) (hb : v'.b = v.b) (hn : v'.n = v.n) (hgc : v'.gc = v.gc) (hN : v'.N = v.N)
    (hd : g.gtype = .uniform → v'.delta = v.delta) : Prep bounds g v' := by
  cases g with
  | uniform a b n =>
    obtain ⟨h1, h2, h3, h4⟩ := h
    exact ⟨ha.trans h1, hb.trans h2, hn.trans h3, (hd rfl).trans h4⟩
  | array gc =>
    obtain ⟨h1, h2, h3⟩ := h
    exact ⟨hgc.trans h1, hN.trans h2, fun h => ⟨ha.trans (h3 h).1, hb.trans (h3 h).2⟩⟩

/-- The cell, barycentric coordinate and `δ` have been computed for the coordinate `x`. -/
def Loc (g : GridDim K) (x : K) (v : DimVars K) : Prop :=
  v.idx = some (cell g x) ∧ v.lam = some (lam g x) ∧ v.delta = some (delta g x)

/-- The weights of the derivative orders `ls` have been computed. -/
def HasPhi (k : ℕ) (ls : List ℕ) (g : GridDim K) (x : K) (v : DimVars K) : Prop :=
  ∀ l ∈ ls, ∀ j < k + 1, v.phi l j = some ((weights k l g x).getD j 0)

/-- The coordinate used on axis `g`, by mode. -/
def modeX (mode : String) (g : GridDim K) (x : K) : K :=
  if mode = "nearest" then clampAxis g x else x

theorem pyDiv_ok (x y : K) (h : (y == 0) = false) : pyDiv x y = .ok (x / y) := by
  simp [pyDiv, h]

/-- The cell number is always legal, whatever the arithmetic. -/
theorem cell_bounds (g : GridDim K) (hg : 2 ≤ size g) (x : K) :
    0 ≤ cell g x ∧ (cell g x).toNat + 2 ≤ size g := by
  cases g with
  | uniform a b n =>
    simp only [cell, pyMax, pyMin, size] at hg ⊢
    split_ifs <;> omega
  | array gc =>
    simp only [cell, pyMax, pyMin, size] at hg ⊢
    have := searchsorted_le gc x
    split_ifs <;> omega

theorem WF.two_le {g : GridDim K} (h : WF g) : 2 ≤ size g := by
  cases g with
  | uniform a b n => have := h.1; simp only [size]; omega
  | array gc => exact h.1

/-! ### Grid parameters -/

/-- Statement recovering the grid parameters of an axis. -/
def recoverStmt (bounds : Bool) (i : ℕ) : GridDim K → Stmt
  | .uniform .. => .recoverUniform i
  | .array _ => .recoverNonuniform i bounds

theorem genRecover_eq (cfg : Cfg) (bounds : Bool) (G : List (GridDim K)) (hd : cfg.d = G.length)
    (ht : cfg.gridTypes = G.map GridDim.gtype) :
    genRecover cfg bounds = (List.range G.length).flatMap
      fun i => (G[i]?.map (recoverStmt bounds i)).toList := by
  unfold genRecover
  rw [hd, ht]
  apply List.flatMap_congr
  intro i _
  rw [List.getElem?_map]
  rcases G[i]? with _ | (⟨a, b, n⟩ | gc) <;> rfl

theorem run_recover (c : Ctx K) (cfg : Cfg) (bounds : Bool) (hd : cfg.d = c.grid.length)
    (ht : cfg.gridTypes = c.grid.map GridDim.gtype) (hwf : ∀ g ∈ c.grid, WF g) (s : State K) :
    ∃ s', run c (genRecover cfg bounds) s = .ok (s', .next) ∧
      (∀ i (hi : i < c.grid.length), Prep bounds c.grid[i] (s'.dims i)) ∧ Frame s s' := by
  rw [genRecover_eq cfg bounds c.grid hd ht]
  obtain ⟨s', h1, h2, h3⟩ := phase c c.grid.length
    (fun i => (c.grid[i]?.map (recoverStmt bounds i)).toList)
    (fun _ _ => True) (fun i v => ∀ hi : i < c.grid.length, Prep bounds c.grid[i] v)
    (by
      intro i hi s _
      have hwfi := hwf c.grid[i] (List.getElem_mem hi)
      have hgi : c.grid[i]? = some c.grid[i] := List.getElem?_eq_getElem hi
      rcases hg : c.grid[i] with ⟨a, b, n⟩ | gc
      · rw [hg] at hwfi hgi
        simp only [hgi, Option.map_some, Option.toList_some, recoverStmt]
        refine ⟨_, run_one c _ _ _ (exec_dim c (.recoverUniform i) i _ s
          { s.dims i with
            a := some a
            b := some b
            n := some n
            delta := some (((n : K) - 1) / (b - a)) } rfl ?_), ?_⟩
        · simp [stepRecoverUniform, hgi, pyDiv_ok _ _ hwfi.2]
        · intro _
          rw [hg]; exact ⟨rfl, rfl, rfl, rfl⟩
      · rw [hg] at hwfi hgi
        simp only [hgi, Option.map_some, Option.toList_some, recoverStmt]
        have h0 : listRead gc 0 = .ok (gc.getD 0 0) :=
          listRead_getD gc 0 0 le_rfl (by have := hwfi.1; omega)
        have h1 : listRead gc ((gc.length : ℤ) - 1) = .ok (gc.getD (gc.length - 1) 0) := by
          have := hwfi.1
          rw [listRead_getD gc _ 0 (by omega) (by omega)]
          congr 2
          omega
        cases bounds with
        | false =>
          refine ⟨_, run_one c _ _ _ (exec_dim c (.recoverNonuniform i false) i _ s
            { s.dims i with gc := some gc, N := some (gc.length : ℤ) } rfl ?_), ?_⟩
          · simp [stepRecoverNonuniform, hgi]
          · intro _
            rw [hg]; exact ⟨rfl, rfl, fun h => by cases h⟩
        | true =>
          refine ⟨_, run_one c _ _ _ (exec_dim c (.recoverNonuniform i true) i _ s
            { s.dims i with
              gc := some gc
              N := some (gc.length : ℤ)
              a := some (gc.getD 0 0)
              b := some (gc.getD (gc.length - 1) 0) } rfl ?_), ?_⟩
          · simp only [stepRecoverNonuniform, hgi, h0, h1, if_true, ok_bind, pure_eq_ok]
          · intro _
            rw [hg]; exact ⟨rfl, rfl, fun _ => ⟨rfl, rfl⟩⟩)
    s (fun _ _ => trivial)
  exact ⟨s', h1, fun i hi => h2 i hi hi, h3⟩

/-! ### Coordinates -/

/-- One iteration of the coordinate loop. -/
def coordBlock (mode : String) (guard : GuardBody) (i : ℕ) : List Stmt :=
  [Stmt.loadX i] ++ (if mode = "nearest" then [Stmt.clampNearest i] else [])
    ++ (if mode = "constant" then [Stmt.constGuard i guard] else [])

theorem genCoords_eq (cfg : Cfg) (guard : GuardBody) :
    genCoords cfg guard = (List.range cfg.d).flatMap (coordBlock cfg.extrap guard) := rfl

/-- Reading a coordinate. -/
theorem run_loadX (c : Ctx K) (i : ℕ) (hi : i < c.x.length) (s : State K) :
    run c [Stmt.loadX i] s = .ok (s.setDim i { s.dims i with x := some c.x[i] }, .next) := by
  apply run_one
  refine exec_dim c _ i _ s _ rfl ?_
  have := listRead_of_lt c.x (i : ℤ) (by omega) (by exact_mod_cast hi)
  simp [this]

theorem run_clamp (c : Ctx K) (i : ℕ) (s : State K) (a b x : K) (ha : (s.dims i).a = some a)
    (hb : (s.dims i).b = some b) (hx : (s.dims i).x = some x) :
    run c [Stmt.clampNearest i] s
      = .ok (s.setDim i { s.dims i with x := some (pyMax a (pyMin x b)) }, .next) := by
  apply run_one
  refine exec_dim c _ i _ s _ rfl ?_
  simp [stepClamp, ha, hb, hx, var]

theorem exec_guard_inside (c : Ctx K) (i : ℕ) (body : GuardBody) (s : State K) (a b x : K)
    (ha : (s.dims i).a = some a) (hb : (s.dims i).b = some b) (hx : (s.dims i).x = some x)
    (hin : (decide (x < a) || decide (b < x)) = false) :
    exec c (Stmt.constGuard i body) s = .ok (s, .next) := by
  simp [exec, stepDim, outside, ha, hb, hx, var, hin]

/-- Coordinates of a point which does not trigger a constant-mode guard. -/
theorem run_coordBlock_inside (c : Ctx K) (mode : String) (guard : GuardBody) (bounds : Bool)
    (i : ℕ) (hi : i < c.grid.length) (hx : i < c.x.length)
    (hb : mode = "nearest" ∨ mode = "constant" → HasBounds bounds c.grid[i])
    (hin : mode = "constant" → isOutside c.grid[i] c.x[i] = false)
    (s : State K) (hp : Prep bounds c.grid[i] (s.dims i)) :
    ∃ v, run c (coordBlock mode guard i) s = .ok (s.setDim i v, .next) ∧
      Prep bounds c.grid[i] v ∧ v.x = some (modeX mode c.grid[i] c.x[i]) := by
  have h1 := run_loadX c i hx s
  set v1 : DimVars K := { s.dims i with x := some c.x[i] } with hv1
  have hp1 : Prep bounds c.grid[i] v1 := hp.congr rfl rfl rfl rfl rfl (fun _ => rfl)
  have hx1 : v1.x = some c.x[i] := rfl
  unfold coordBlock
  by_cases hn : mode = "nearest"
  · have hc : mode ≠ "constant" := by rw [hn]; decide
    obtain ⟨ha, hb'⟩ := hp1.ab (hb (Or.inl hn))
    have h2 := run_clamp c i (s.setDim i v1) (Ref.lo c.grid[i]) (Ref.hi c.grid[i]) c.x[i]
      (by rw [setDim_same]; exact ha) (by rw [setDim_same]; exact hb') (by rw [setDim_same])
    rw [setDim_same, setDim_setDim] at h2
    refine ⟨{ v1 with
        x := some (pyMax (Ref.lo c.grid[i]) (pyMin c.x[i] (Ref.hi c.grid[i]))) }, ?_,
        hp1.congr rfl rfl rfl rfl rfl (fun _ => rfl), ?_⟩
    rotate_left
    · simp [modeX, hn, clampAxis]
    · rw [if_pos hn, if_neg hc, List.append_nil, run_append_next c _ _ _ _ h1, h2]
  · by_cases hc : mode = "constant"
    · obtain ⟨ha, hb'⟩ := hp1.ab (hb (Or.inr hc))
      have h2 := exec_guard_inside c i guard (s.setDim i v1) (Ref.lo c.grid[i]) (Ref.hi c.grid[i])
        c.x[i] (by rw [setDim_same]; exact ha) (by rw [setDim_same]; exact hb')
        (by rw [setDim_same]) (hin hc)
      refine ⟨v1, ?_, hp1, by simp [modeX, hn, hx1]⟩
      rw [if_neg hn, if_pos hc, List.append_nil, run_append_next c _ _ _ _ h1,
        run_one c _ _ _ h2]
    · refine ⟨v1, ?_, hp1, by simp [modeX, hn, hx1]⟩
      rw [if_neg hn, if_neg hc, List.append_nil, List.append_nil, h1]

/-- Coordinate loop, no guard triggered. -/
theorem run_coords_inside (c : Ctx K) (mode : String) (guard : GuardBody) (bounds : Bool)
    (hx : c.x.length = c.grid.length)
    (hb : mode = "nearest" ∨ mode = "constant" → ∀ g ∈ c.grid, HasBounds bounds g)
    (hin : mode = "constant" → ∀ i (hi : i < c.grid.length) (hx : i < c.x.length),
      isOutside c.grid[i] c.x[i] = false)
    (s : State K) (hp : ∀ i (hi : i < c.grid.length), Prep bounds c.grid[i] (s.dims i)) :
    ∃ s', run c ((List.range c.grid.length).flatMap (coordBlock mode guard)) s = .ok (s', .next) ∧
      (∀ i (hi : i < c.grid.length) (hx : i < c.x.length), Prep bounds c.grid[i] (s'.dims i) ∧
        (s'.dims i).x = some (modeX mode c.grid[i] c.x[i])) ∧ Frame s s' := by
  obtain ⟨s', h1, h2, h3⟩ := phase c c.grid.length (coordBlock mode guard)
    (fun i v => ∀ hi : i < c.grid.length, Prep bounds c.grid[i] v)
    (fun i v => ∀ (hi : i < c.grid.length) (hx : i < c.x.length), Prep bounds c.grid[i] v ∧
        v.x = some (modeX mode c.grid[i] c.x[i]))
    (by
      intro i hi s hs
      obtain ⟨v, hv1, hv2, hv3⟩ := run_coordBlock_inside c mode guard bounds i hi (by omega)
        (fun h => hb h _ (List.getElem_mem hi)) (fun h => hin h i hi (by omega)) s (hs hi)
      exact ⟨v, hv1, fun _ _ => ⟨hv2, hv3⟩⟩) s (fun i hi _ => hp i hi)
  exact ⟨s', h1, fun i hi hx => h2 i hi hi hx, h3⟩

/-! ### Location -/

def locateStmt (i : ℕ) : GridDim K → Stmt
  | .uniform .. => .locateUniform i
  | .array _ => .locateNonuniform i

theorem genLocate_eq (cfg : Cfg) (G : List (GridDim K)) (hd : cfg.d = G.length)
    (ht : cfg.gridTypes = G.map GridDim.gtype) :
    genLocate cfg = (List.range G.length).flatMap
      fun i => (G[i]?.map (locateStmt i)).toList := by
  unfold genLocate
  rw [hd, ht]
  apply List.flatMap_congr
  intro i _
  rw [List.getElem?_map]
  rcases G[i]? with _ | (⟨a, b, n⟩ | gc) <;> rfl

theorem run_locateBlock (c : Ctx K) (bounds : Bool) (i : ℕ) (g : GridDim K) (hg : WF g) (x : K)
    (s : State K) (hp : Prep bounds g (s.dims i)) (hx : (s.dims i).x = some x) :
    ∃ v, run c [locateStmt i g] s = .ok (s.setDim i v, .next) ∧ Prep bounds g v ∧ Loc g x v := by
  cases g with
  | uniform a b n =>
    obtain ⟨h1, h2, h3, h4⟩ := hp
    refine ⟨{ s.dims i with
        idx := some (cell (.uniform a b n) x)
        lam := some (lam (.uniform a b n) x) },
      run_one c _ _ _ (exec_dim c (.locateUniform i) i _ s _ rfl ?_), ?_, rfl, rfl, h4⟩
    · simp only [stepLocateUniform, h1, h3, h4, hx, var, pure_eq_ok, ok_bind]
      rfl
    · exact ⟨h1, h2, h3, h4⟩
  | array gc =>
    obtain ⟨h1, h2, h3⟩ := hp
    have hc := cell_bounds (.array gc) (WF.two_le (g := .array gc) hg) x
    have hlen : (cell (.array gc) x).toNat + 2 ≤ gc.length := hc.2
    have r1 : listRead gc (cell (.array gc) x + 1)
        = .ok (gc.getD ((cell (.array gc) x).toNat + 1) 0) := by
      rw [listRead_getD gc _ 0 (by omega) (by omega)]
      congr 2; omega
    have r0 : listRead gc (cell (.array gc) x)
        = .ok (gc.getD (cell (.array gc) x).toNat 0) :=
      listRead_getD gc _ 0 (by omega) (by omega)
    have hdiv := hg.2 (cell (.array gc) x).toNat (by omega)
    refine ⟨{ s.dims i with
        idx := some (cell (.array gc) x)
        delta := some (delta (.array gc) x)
        lam := some (lam (.array gc) x) },
      run_one c _ _ _ (exec_dim c (.locateNonuniform i) i _ s _ rfl ?_), ?_, rfl, rfl, rfl⟩
    · simp only [stepLocateNonuniform, h1, h2, hx, var, pure_eq_ok, ok_bind]
      rw [show cell (.array gc) x = pyMin (pyMax ((searchsorted gc x : ℤ) - 1) 0)
        ((gc.length : ℤ) - 2) from rfl] at r1 r0 hdiv
      simp only [r1, r0, ok_bind, pyDiv_ok _ _ hdiv, pure_eq_ok]
      rfl
    · exact ⟨h1, h2, h3⟩

theorem run_locate (c : Ctx K) (cfg : Cfg) (bounds : Bool) (hd : cfg.d = c.grid.length)
    (ht : cfg.gridTypes = c.grid.map GridDim.gtype) (hwf : ∀ g ∈ c.grid, WF g)
    (xs : List K) (hx : xs.length = c.grid.length) (s : State K)
    (hp : ∀ i (hi : i < c.grid.length) (hx : i < xs.length), Prep bounds c.grid[i] (s.dims i) ∧
        (s.dims i).x = some xs[i]) :
    ∃ s', run c (genLocate cfg) s = .ok (s', .next) ∧
      (∀ i (hi : i < c.grid.length) (hx : i < xs.length), Prep bounds c.grid[i] (s'.dims i) ∧
        Loc c.grid[i] xs[i] (s'.dims i)) ∧ Frame s s' := by
  rw [genLocate_eq cfg c.grid hd ht]
  obtain ⟨s', h1, h2, h3⟩ := phase c c.grid.length
    (fun i => (c.grid[i]?.map (locateStmt i)).toList)
    (fun i v => ∀ (hi : i < c.grid.length) (hx : i < xs.length), Prep bounds c.grid[i] v ∧
        v.x = some xs[i])
    (fun i v => ∀ (hi : i < c.grid.length) (hx : i < xs.length), Prep bounds c.grid[i] v ∧
        Loc c.grid[i] xs[i] v)
    (by
      intro i hi s hs
      have hi' : i < xs.length := by omega
      obtain ⟨v, hv1, hv2, hv3⟩ := run_locateBlock c bounds i c.grid[i]
        (hwf _ (List.getElem_mem hi)) xs[i] s (hs hi hi').1 (hs hi hi').2
      refine ⟨v, ?_, fun _ _ => ⟨hv2, hv3⟩⟩
      rw [List.getElem?_eq_getElem hi]
      exact hv1) s (fun i _ hi hx => hp i hi hx)
  exact ⟨s', h1, fun i hi hx => h2 i hi hi hx, h3⟩

/-! ### Basis functions -/

def blendStmt (k l i : ℕ) : Stmt := if k = 1 then .blend1 l i else .blend3 l i

/-- Spline orders and derivative orders for which a basis block is generated. -/
def OrdersOk (k : ℕ) (ls : List ℕ) : Prop := k = 1 ∨ (k = 3 ∧ ∀ l ∈ ls, l ≤ 1)

theorem blendingFormula_ok (k l i : ℕ) (h : OrdersOk k [l]) :
    blendingFormula k l i = .ok (blendStmt k l i) := by
  rcases h with rfl | ⟨rfl, h⟩
  · rfl
  · simp [blendingFormula, blendStmt, h l (by simp)]

theorem OrdersOk.mem {k : ℕ} {ls : List ℕ} (h : OrdersOk k ls) {l : ℕ} (hl : l ∈ ls) :
    OrdersOk k [l] := by
  rcases h with h | ⟨h, h'⟩
  · exact Or.inl h
  · exact Or.inr ⟨h, by simpa using h' l hl⟩

theorem genBasis_ok (cfg : Cfg) (ls : ℕ → List ℕ)
    (hbo : ∀ i < cfg.d, (basesOrders cfg.d cfg.orders)[i]? = some (ls i))
    (hk : ∀ i < cfg.d, OrdersOk cfg.k (ls i)) :
    genBasis cfg = .ok ((List.range cfg.d).flatMap
      fun i => (ls i).map fun l => blendStmt cfg.k l i) := by
  unfold genBasis
  have := mapM_ok (fun i =>
      match (basesOrders cfg.d cfg.orders)[i]? with
      | none => throw Err.index
      | some ls => ls.mapM fun l => blendingFormula cfg.k l i)
    (fun i => (ls i).map fun l => blendStmt cfg.k l i) (List.range cfg.d) (by
      intro i hi
      have hi' : i < cfg.d := by simpa using hi
      simp only [hbo i hi']
      exact mapM_ok _ _ _ (fun l hl => blendingFormula_ok _ _ _ ((hk i hi').mem hl)))
  refine (congrArg (fun m : Py (List (List Stmt)) =>
    m >>= fun blocks => pure (List.flatten blocks)) this).trans ?_
  rw [List.flatMap_def]
  rfl

theorem weights_length (k l : ℕ) (hk : k = 1 ∨ k = 3) (g : GridDim K) (x : K) :
    (weights k l g x).length = k + 1 := by
  unfold weights
  rcases hk with rfl | rfl
  · simp only [if_true]; split_ifs <;> rfl
  · simp

theorem blend3Vals_zero (lam d d' : K) (j : ℕ) :
    blend3Vals 0 lam d j = blend3Vals 0 lam d' j := by
  simp [blend3Vals]

/-- `δ` is not zero where the generated code divides by it (`k = 1`, first derivatives). -/
def DerivOk (k : ℕ) (ls : List ℕ) (g : GridDim K) (x : K) : Prop :=
  k = 1 → 1 ∈ ls → (delta g x == 0) = false

theorem run_blendOne (c : Ctx K) (k l i : ℕ) (hk : OrdersOk k [l])
    (g : GridDim K) (x : K) (hd : DerivOk k [l] g x) (s : State K)
    (hl : Loc g x (s.dims i)) :
    exec c (blendStmt k l i) s = .ok (s.setDim i ((s.dims i).setPhi l (k + 1)
      fun j => (weights k l g x).getD j 0), .next) := by
  obtain ⟨h1, h2, h3⟩ := hl
  have hlt : ∀ v : DimVars K, ∀ m : ℕ, ∀ f f' : ℕ → K, (∀ j < m, f j = f' j) →
      v.setPhi l m f = v.setPhi l m f' := by
    intro v m f f' hff
    simp only [DimVars.setPhi]
    congr 1
    funext l' j
    by_cases hj : l' = l ∧ j < m
    · simp [hj, hff j hj.2]
    · simp [hj]
  rcases hk with rfl | ⟨rfl, hk⟩
  · refine exec_dim c (.blend1 l i) i _ s _ rfl ?_
    simp only [stepBlend1, h2, h3, var, pure_eq_ok, blend1Vals, weights, if_true]
    by_cases h0 : l = 0
    · simp only [h0, if_true, ok_bind]
      congr 1
      subst h0
      apply hlt
      intro j hj
      have : j = 0 ∨ j = 1 := by omega
      rcases this with rfl | rfl <;> simp
    · by_cases h1' : l = 1
      · have hd' := hd rfl (by simp [h1'])
        subst h1'
        simp only [one_ne_zero, if_false, if_true, ok_bind, pyDiv_ok _ _ hd']
        congr 1
        apply hlt
        intro j hj
        have : j = 0 ∨ j = 1 := by omega
        rcases this with rfl | rfl <;> simp
      · simp only [h0, h1', if_false, ok_bind]
        congr 1
        apply hlt
        intro j hj
        have : j = 0 ∨ j = 1 := by omega
        rcases this with rfl | rfl <;> simp
  · refine exec_dim c (.blend3 l i) i _ s _ rfl ?_
    have hl1 : l ≤ 1 := hk l (by simp)
    simp only [stepBlend3, h2, h3, var, pure_eq_ok, ok_bind, weights]
    by_cases h0 : l = 0
    · subst h0
      simp only [if_true, ok_bind]
      congr 1
      apply hlt
      intro j hj
      have hj : j < 4 := hj
      simp [hj]
      exact blend3Vals_zero _ _ _ _
    · simp only [h0, if_false, ok_bind]
      congr 1
      apply hlt
      intro j hj
      have hj : j < 4 := hj
      simp [hj]

theorem run_blendBlock (c : Ctx K) (k i : ℕ) (bounds : Bool) (g : GridDim K) (x : K)
    (ls : List ℕ) : ∀ (done : List ℕ) (s : State K) (_ : OrdersOk k ls) (_ : DerivOk k ls g x)
    (_ : Prep bounds g (s.dims i)) (_ : Loc g x (s.dims i)) (_ : HasPhi k done g x (s.dims i)),
    ∃ v, run c (ls.map fun l => blendStmt k l i) s = .ok (s.setDim i v, .next) ∧
      Prep bounds g v ∧ Loc g x v ∧ HasPhi k (done ++ ls) g x v := by
  induction ls with
  | nil =>
    intro done s _ _ hp hl hphi
    exact ⟨s.dims i, by rw [setDim_self]; rfl, hp, hl, by simpa using hphi⟩
  | cons l ls ih =>
    intro done s hk hd hp hl hphi
    have h1 := run_blendOne c k l i (hk.mem (by simp)) g x
      (fun h h' => hd h (by simp at h'; simp [h'])) s hl
    set v1 := (s.dims i).setPhi l (k + 1) fun j => (weights k l g x).getD j 0 with hv1
    have hdone : HasPhi k (done ++ [l]) g x v1 := by
      intro l' hl' j hj
      rw [hv1]
      simp only [DimVars.setPhi]
      by_cases h : l' = l
      · subst h; simp [hj]
      · have : l' ∈ done := by simpa [h] using hl'
        simp only [h, false_and, if_false]
        exact hphi l' this j hj
    obtain ⟨v, hv, hpv, hlv, hphiv⟩ := ih (done ++ [l]) (s.setDim i v1)
      (by rcases hk with h | ⟨h, h'⟩
          · exact Or.inl h
          · exact Or.inr ⟨h, fun a ha => h' a (by simp [ha])⟩)
      (fun h h' => hd h (by simp [h']))
      (by rw [setDim_same]; exact hp.congr rfl rfl rfl rfl rfl (fun _ => rfl))
      (by rw [setDim_same]; exact hl) (by rw [setDim_same]; exact hdone)
    refine ⟨v, ?_, hpv, hlv, by simpa using hphiv⟩
    rw [List.map_cons, run, h1]
    simp only [ok_bind]
    rw [hv, setDim_setDim]

theorem run_basis (c : Ctx K) (k : ℕ) (bounds : Bool) (ls : ℕ → List ℕ)
    (hk : ∀ i < c.grid.length, OrdersOk k (ls i))
    (xs : List K) (hx : xs.length = c.grid.length) (s : State K)
    (hd : ∀ i (hi : i < c.grid.length) (hx : i < xs.length), DerivOk k (ls i) c.grid[i] xs[i])
    (hp : ∀ i (hi : i < c.grid.length) (hx : i < xs.length), Prep bounds c.grid[i] (s.dims i) ∧
        Loc c.grid[i] xs[i] (s.dims i)) :
    ∃ s', run c ((List.range c.grid.length).flatMap
        fun i => (ls i).map fun l => blendStmt k l i) s = .ok (s', .next) ∧
      (∀ i (hi : i < c.grid.length) (hx : i < xs.length), Prep bounds c.grid[i] (s'.dims i) ∧
        Loc c.grid[i] xs[i] (s'.dims i) ∧ HasPhi k (ls i) c.grid[i] xs[i] (s'.dims i)) ∧
      Frame s s' := by
  obtain ⟨s', h1, h2, h3⟩ := phase c c.grid.length
    (fun i => (ls i).map fun l => blendStmt k l i)
    (fun i v => ∀ (hi : i < c.grid.length) (hx : i < xs.length), Prep bounds c.grid[i] v ∧
        Loc c.grid[i] xs[i] v)
    (fun i v => ∀ (hi : i < c.grid.length) (hx : i < xs.length), Prep bounds c.grid[i] v ∧
        Loc c.grid[i] xs[i] v ∧ HasPhi k (ls i) c.grid[i] xs[i] v)
    (by
      intro i hi s hs
      have hi' : i < xs.length := by omega
      obtain ⟨v, hv1, hv2, hv3, hv4⟩ := run_blendBlock c k i bounds c.grid[i] xs[i] (ls i) [] s
        (hk i hi) (hd i hi hi') (hs hi hi').1 (hs hi hi').2 (by intro l hl; simp at hl)
      exact ⟨v, hv1, fun _ _ => ⟨hv2, hv3, by simpa using hv4⟩⟩) s (fun i _ hi hx => hp i hi hx)
  exact ⟨s', h1, fun i hi hx => h2 i hi hi hx, h3⟩

end Interp.Codegen
