import Verif.Proofs.CodegenMain

/-! Generated programs of supported calls compile: every name that is read is assigned. -/

set_option linter.unusedSectionVars false
set_option linter.unusedSimpArgs false

namespace Interp.Codegen
open Interp.Ref

variable {K : Type} [Add K] [Sub K] [Mul K] [Div K] [Neg K] [Zero K] [One K] [NatCast K]
  [IntCast K] [LT K] [DecidableLT K] [BEq K] [IntFloor K]

variable {k : ℕ} {G : List (GridDim K)} {C : NdArray K} {vec : Bool} {m : ℕ}
  {orders : Option (List (List ℕ))}

/-- Variables that are assigned somewhere in the program. -/
def Defd (k : ℕ) (G : List (GridDim K)) (vec : Bool) (orders : Option (List (List ℕ)))
    (bounds : Bool) : Var → Prop
  | .a i | .b i => ∃ hi : i < G.length, HasBounds bounds G[i]
  | .n i => ∃ hi : i < G.length, G[i].gtype = .uniform
  | .gc i | .N i => ∃ hi : i < G.length, G[i].gtype = .nonuniform
  | .delta i | .x i | .idx i | .lam i => i < G.length
  | .phi l i j => i < G.length ∧ l ∈ axisOrders orders i ∧ j < k + 1
  | .val v => ∃ os, orders = some os ∧ ∃ oo ∈ os, v = valName oo
  | .nVals => vec = true

theorem foldl_add_uses (es : List TExpr) : ∀ (e : TExpr) (v : Var),
    v ∈ (es.foldl TExpr.add e).uses → v ∈ e.uses ∨ ∃ e' ∈ es, v ∈ e'.uses := by
  induction es with
  | nil => intro e v h; exact Or.inl h
  | cons a es ih =>
    intro e v h
    rcases ih _ v h with h | ⟨e', he', hv⟩
    · simp only [TExpr.uses, List.mem_append] at h
      rcases h with h | h
      · exact Or.inl h
      · exact Or.inr ⟨a, by simp, h⟩
    · exact Or.inr ⟨e', by simp [he'], hv⟩

theorem joinPlus_uses (es : List TExpr) (v : Var) (h : v ∈ (joinPlus es).uses) :
    ∃ e ∈ es, v ∈ e.uses := by
  cases es with
  | nil => simp [joinPlus, TExpr.uses] at h
  | cons e es =>
    rcases foldl_add_uses es e v h with h | ⟨e', he', hv⟩
    · exact ⟨e, by simp, h⟩
    · exact ⟨e', by simp [he'], hv⟩

theorem genTrex_uses (l : List (List TExpr)) (c : List ℕ → TExpr) (v : Var) :
    ∀ inds, v ∈ (genTrex l c inds).uses →
      (∃ h ∈ l, ∃ e ∈ h, v ∈ e.uses) ∨
      (∃ r : List ℕ, r.length = inds.length + l.length ∧ v ∈ (c r).uses) := by
  induction l with
  | nil => intro inds h; exact Or.inr ⟨inds, by simp, h⟩
  | cons h q ih =>
    intro inds hv
    rw [genTrex] at hv
    obtain ⟨e, he, hve⟩ := joinPlus_uses _ v hv
    rw [List.mem_mapIdx] at he
    obtain ⟨i, hi, rfl⟩ := he
    simp only [TExpr.uses, List.mem_append] at hve
    rcases hve with hve | hve
    · exact Or.inl ⟨h, by simp, h[i], List.getElem_mem hi, hve⟩
    · rcases ih _ hve with ⟨h', hh', r⟩ | ⟨r, hr, hvr⟩
      · exact Or.inl ⟨h', by simp [hh'], r⟩
      · exact Or.inr ⟨r, by simp at hr ⊢; omega, hvr⟩

theorem getValues_uses (h : GoodCall k G C vec m orders) (bounds : Bool) (mv : Bool)
    (diffs : Option (List ℕ))
    (hdiff : (orders = none ∧ diffs = none) ∨ (∃ os oo, orders = some os ∧ oo ∈ os ∧ diffs = some oo))
    (v : Var) (hv : v ∈ (getValues G.length mv (k + 1) diffs).uses) :
    Defd k G vec orders bounds v := by
  have hlen : (diffs.getD (List.replicate G.length 0)).length = G.length := by
    rcases hdiff with ⟨_, rfl⟩ | ⟨os, oo, ho, hoo, rfl⟩
    · simp
    · exact ((h.ords os ho).2 oo hoo).1
  have hmem : ∀ i (hi : i < (diffs.getD (List.replicate G.length 0)).length),
      (diffs.getD (List.replicate G.length 0))[i] ∈ axisOrders orders i := by
    intro i hi
    rcases hdiff with ⟨ho, rfl⟩ | ⟨os, oo, ho, hoo, rfl⟩
    · subst ho; simp [axisOrders]
    · subst ho
      rw [mem_axisOrders]
      refine ⟨oo, hoo, ?_⟩
      have hi' : i < oo.length := hi
      rw [List.getD_eq_getElem?_getD, List.getElem?_eq_getElem hi']; rfl
  rw [getValues] at hv
  rcases genTrex_uses _ _ v _ hv with ⟨hl, hhl, e, he, hve⟩ | ⟨r, hr, hvr⟩
  · rw [List.mem_mapIdx] at hhl
    obtain ⟨i, hi, rfl⟩ := hhl
    rw [List.mem_map] at he
    obtain ⟨j, hj, rfl⟩ := he
    simp only [TExpr.uses, List.mem_singleton] at hve
    subst hve
    exact ⟨by omega, hmem i hi, by simpa using hj⟩
  · simp only [TExpr.uses, List.mem_map, List.mem_range] at hvr
    obtain ⟨i, hi, rfl⟩ := hvr
    simp only [List.length_nil, List.length_mapIdx, Nat.zero_add] at hr
    show i < G.length
    omega

/-- Every section of the program only reads assigned variables. -/
def UsesOk (k : ℕ) (G : List (GridDim K)) (vec : Bool) (orders : Option (List (List ℕ)))
    (bounds : Bool) (L : List Stmt) : Prop :=
  ∀ s ∈ L, ∀ v ∈ s.uses, Defd k G vec orders bounds v

theorem UsesOk.append {bounds : Bool} {L L' : List Stmt} (h : UsesOk k G vec orders bounds L)
    (h' : UsesOk k G vec orders bounds L') : UsesOk k G vec orders bounds (L ++ L') := by
  intro s hs
  rcases List.mem_append.1 hs with hs | hs
  · exact h s hs
  · exact h' s hs

theorem mem_flatMap_block {blk : ℕ → Option Stmt} {d : ℕ} {s : Stmt}
    (h : s ∈ (List.range d).flatMap fun i => (blk i).toList) : ∃ i < d, blk i = some s := by
  rw [List.mem_flatMap] at h
  obtain ⟨i, hi, hs⟩ := h
  exact ⟨i, by simpa using hi, by simpa using hs⟩

theorem uses_recover (cfg : Cfg) (b bounds : Bool) (hd : cfg.d = G.length)
    (ht : cfg.gridTypes = G.map GridDim.gtype) :
    UsesOk k G vec orders bounds (genRecover cfg b) := by
  rw [genRecover_eq cfg b G hd ht]
  intro s hs
  obtain ⟨i, hi, h⟩ := mem_flatMap_block hs
  rw [List.getElem?_eq_getElem hi, Option.map_some, Option.some.injEq] at h
  subst h
  rcases G[i] with ⟨a, b, n⟩ | gc <;> simp [recoverStmt, Stmt.uses]

theorem uses_coords (cfg : Cfg) (guard : GuardBody) (bounds : Bool) (hd : cfg.d = G.length)
    (hb : cfg.extrap = "nearest" ∨ cfg.extrap = "constant" → ∀ g ∈ G, HasBounds bounds g) :
    UsesOk k G vec orders bounds (genCoords cfg guard) := by
  intro s hs v hv
  rw [genCoords_eq, List.mem_flatMap] at hs
  obtain ⟨i, hi, hs⟩ := hs
  have hi' : i < G.length := by rw [← hd]; simpa using hi
  rw [coordBlock] at hs
  simp only [List.mem_append, List.mem_singleton] at hs
  rcases hs with (rfl | hs) | hs
  · simp [Stmt.uses] at hv
  · split_ifs at hs with hm
    · rw [List.mem_singleton] at hs
      subst hs
      have hbi := hb (Or.inl hm) G[i] (List.getElem_mem hi')
      simp only [Stmt.uses, List.mem_cons, List.not_mem_nil, or_false] at hv
      rcases hv with rfl | rfl | rfl
      · exact ⟨hi', hbi⟩
      · exact ⟨hi', hbi⟩
      · exact hi'
    · simp at hs
  · split_ifs at hs with hm
    · rw [List.mem_singleton] at hs
      subst hs
      have hbi := hb (Or.inr hm) G[i] (List.getElem_mem hi')
      simp only [Stmt.uses, List.mem_cons, List.not_mem_nil, or_false] at hv
      rcases hv with rfl | rfl | rfl
      · exact ⟨hi', hbi⟩
      · exact ⟨hi', hbi⟩
      · exact hi'
    · simp at hs

theorem uses_locate (cfg : Cfg) (bounds : Bool) (hd : cfg.d = G.length)
    (ht : cfg.gridTypes = G.map GridDim.gtype) :
    UsesOk k G vec orders bounds (genLocate cfg) := by
  rw [genLocate_eq cfg G hd ht]
  intro s hs v hv
  obtain ⟨i, hi, h⟩ := mem_flatMap_block hs
  rw [List.getElem?_eq_getElem hi, Option.map_some, Option.some.injEq] at h
  subst h
  rcases hg : G[i] with ⟨a, b, n⟩ | gc
  · rw [hg] at hv
    simp only [locateStmt, Stmt.uses, List.mem_cons, List.not_mem_nil, or_false] at hv
    rcases hv with rfl | rfl | rfl | rfl
    · exact hi
    · exact ⟨hi, Or.inr (by rw [hg]; rfl)⟩
    · exact hi
    · exact ⟨hi, by rw [hg]; rfl⟩
  · rw [hg] at hv
    simp only [locateStmt, Stmt.uses, List.mem_cons, List.not_mem_nil, or_false] at hv
    rcases hv with rfl | rfl | rfl
    · exact hi
    · exact ⟨hi, by rw [hg]; rfl⟩
    · exact ⟨hi, by rw [hg]; rfl⟩

theorem uses_basis (kk : ℕ) (bounds : Bool) (ls : ℕ → List ℕ) :
    UsesOk k G vec orders bounds ((List.range G.length).flatMap
      fun i => (ls i).map fun l => blendStmt kk l i) := by
  intro s hs v hv
  rw [List.mem_flatMap] at hs
  obtain ⟨i, hi, hs⟩ := hs
  have hi' : i < G.length := by simpa using hi
  rw [List.mem_map] at hs
  obtain ⟨l, _, rfl⟩ := hs
  unfold blendStmt at hv
  split_ifs at hv
  · simp only [Stmt.uses] at hv
    split_ifs at hv <;> simp at hv
    · subst hv; exact hi'
    · subst hv; exact hi'
  · simp only [Stmt.uses] at hv
    split_ifs at hv <;> simp at hv
    · subst hv; exact hi'
    · rcases hv with rfl | rfl <;> exact hi'

theorem uses_reduceVec (h : GoodCall k G C vec m orders) (cfg : Cfg) (bounds : Bool)
    (hd : cfg.d = G.length) (hk : cfg.k = k) (hv : cfg.vectorValued = vec)
    (ho : cfg.orders = orders) : UsesOk k G vec orders bounds (genReduceVec cfg) := by
  intro s hs v hvs
  unfold genReduceVec at hs
  rw [hd, hk, hv, ho] at hs
  cases vec with
  | true =>
    cases orders with
    | none =>
      simp only [if_true, List.mem_singleton] at hs
      subst hs
      simp only [Stmt.uses, List.mem_cons] at hvs
      rcases hvs with rfl | hvs
      · rfl
      · exact getValues_uses h bounds true none (Or.inl ⟨rfl, rfl⟩) v hvs
    | some os =>
      simp only [if_true, List.mem_singleton] at hs
      subst hs
      simp only [Stmt.uses, List.mem_cons, List.mem_append, List.mem_flatMap, List.mem_map,
        List.cons_append] at hvs
      rcases hvs with rfl | ⟨p, ⟨oo, hoo, rfl⟩, hvs⟩ | ⟨nm, ⟨oo, hoo, rfl⟩, rfl⟩
      · rfl
      · exact getValues_uses h bounds true (some oo) (Or.inr ⟨os, oo, rfl, hoo, rfl⟩) v hvs
      · exact ⟨os, rfl, oo, hoo, rfl⟩
  | false =>
    cases orders with
    | none =>
      simp only [Bool.false_eq_true, if_false, List.mem_singleton] at hs
      subst hs
      exact getValues_uses h bounds false none (Or.inl ⟨rfl, rfl⟩) v hvs
    | some os =>
      simp only [Bool.false_eq_true, if_false, List.mem_append, List.mem_map,
        List.mem_mapIdx] at hs
      rcases hs with ⟨oo, hoo, rfl⟩ | ⟨i, hi, rfl⟩
      · exact getValues_uses h bounds false (some oo) (Or.inr ⟨os, oo, rfl, hoo, rfl⟩) v hvs
      · simp only [Stmt.uses, List.mem_singleton] at hvs
        subst hvs
        exact ⟨os, rfl, os[i], List.getElem_mem hi, rfl⟩

/-- Membership facts that make every variable of `Defd` assigned. -/
theorem defd_assigned (h : GoodCall k G C vec m orders) (bounds : Bool) (L : List Stmt)
    (hR : ∀ i (hi : i < G.length), recoverStmt bounds i G[i] ∈ L)
    (hX : ∀ i < G.length, Stmt.loadX i ∈ L)
    (hL : ∀ i (hi : i < G.length), locateStmt i G[i] ∈ L)
    (hB : ∀ i < G.length, ∀ l ∈ axisOrders orders i, blendStmt k l i ∈ L)
    (hN : vec = true → ∃ d, Stmt.readNVals d ∈ L)
    (hV : ∀ os, orders = some os → ∀ oo ∈ os, ∃ t ∈ L, Var.val (valName oo) ∈ t.defs)
    (v : Var) (hv : Defd k G vec orders bounds v) : ∃ t ∈ L, v ∈ t.defs := by
  have hloc : ∀ i (hi : i < G.length), Var.idx i ∈ (locateStmt i G[i]).defs ∧
      Var.lam i ∈ (locateStmt i G[i]).defs := by
    intro i hi
    rcases G[i] with ⟨a, b, n⟩ | gc <;> simp [locateStmt, Stmt.defs]
  cases v with
  | a i =>
    obtain ⟨hi, hb⟩ := hv
    refine ⟨_, hR i hi, ?_⟩
    rcases hg : G[i] with ⟨a, b, n⟩ | gc
    · simp [recoverStmt, Stmt.defs]
    · rw [hg] at hb
      rcases hb with rfl | hb
      · simp [recoverStmt, Stmt.defs]
      · cases hb
  | b i =>
    obtain ⟨hi, hb⟩ := hv
    refine ⟨_, hR i hi, ?_⟩
    rcases hg : G[i] with ⟨a, b, n⟩ | gc
    · simp [recoverStmt, Stmt.defs]
    · rw [hg] at hb
      rcases hb with rfl | hb
      · simp [recoverStmt, Stmt.defs]
      · cases hb
  | n i =>
    obtain ⟨hi, hg'⟩ := hv
    refine ⟨_, hR i hi, ?_⟩
    rcases hg : G[i] with ⟨a, b, n⟩ | gc
    · simp [recoverStmt, Stmt.defs]
    · rw [hg] at hg'; cases hg'
  | delta i =>
    have hi : i < G.length := hv
    rcases hg : G[i] with ⟨a, b, n⟩ | gc
    · refine ⟨_, hR i hi, ?_⟩
      rw [hg]; simp [recoverStmt, Stmt.defs]
    · refine ⟨_, hL i hi, ?_⟩
      rw [hg]; simp [locateStmt, Stmt.defs]
  | gc i =>
    obtain ⟨hi, hg'⟩ := hv
    refine ⟨_, hR i hi, ?_⟩
    rcases hg : G[i] with ⟨a, b, n⟩ | gc
    · rw [hg] at hg'; cases hg'
    · simp [recoverStmt, Stmt.defs]
  | N i =>
    obtain ⟨hi, hg'⟩ := hv
    refine ⟨_, hR i hi, ?_⟩
    rcases hg : G[i] with ⟨a, b, n⟩ | gc
    · rw [hg] at hg'; cases hg'
    · simp [recoverStmt, Stmt.defs]
  | x i => exact ⟨_, hX i hv, by simp [Stmt.defs]⟩
  | idx i => exact ⟨_, hL i hv, (hloc i hv).1⟩
  | lam i => exact ⟨_, hL i hv, (hloc i hv).2⟩
  | phi l i j =>
    obtain ⟨hi, hl, hj⟩ := hv
    refine ⟨_, hB i hi l hl, ?_⟩
    rcases h.hk with rfl | rfl
    · have : j = 0 ∨ j = 1 := by omega
      rcases this with rfl | rfl <;> simp [blendStmt, Stmt.defs]
    · have : j = 0 ∨ j = 1 ∨ j = 2 ∨ j = 3 := by omega
      rcases this with rfl | rfl | rfl | rfl <;> simp [blendStmt, Stmt.defs]
  | val nm =>
    obtain ⟨os, ho, oo, hoo, rfl⟩ := hv
    exact hV os ho oo hoo
  | nVals =>
    obtain ⟨d, hd⟩ := hN hv
    exact ⟨_, hd, by simp [Stmt.defs]⟩

theorem mem_genRecover (cfg : Cfg) (bounds : Bool) (hd : cfg.d = G.length)
    (ht : cfg.gridTypes = G.map GridDim.gtype) (i : ℕ) (hi : i < G.length) :
    recoverStmt bounds i G[i] ∈ genRecover cfg bounds := by
  rw [genRecover_eq cfg bounds G hd ht, List.mem_flatMap]
  exact ⟨i, by simpa using hi, by simp [List.getElem?_eq_getElem hi]⟩

theorem mem_genLocate (cfg : Cfg) (hd : cfg.d = G.length)
    (ht : cfg.gridTypes = G.map GridDim.gtype) (i : ℕ) (hi : i < G.length) :
    locateStmt i G[i] ∈ genLocate cfg := by
  rw [genLocate_eq cfg G hd ht, List.mem_flatMap]
  exact ⟨i, by simpa using hi, by simp [List.getElem?_eq_getElem hi]⟩

theorem mem_genCoords (cfg : Cfg) (guard : GuardBody) (hd : cfg.d = G.length) (i : ℕ)
    (hi : i < G.length) : Stmt.loadX i ∈ genCoords cfg guard := by
  rw [genCoords_eq, List.mem_flatMap]
  exact ⟨i, by simpa [hd] using hi, by simp [coordBlock]⟩

theorem mem_basis (d : ℕ) (ls : ℕ → List ℕ) (i : ℕ) (hi : i < d) (l : ℕ) (hl : l ∈ ls i) :
    blendStmt k l i ∈ (List.range d).flatMap fun i => (ls i).map fun l => blendStmt k l i := by
  rw [List.mem_flatMap]
  exact ⟨i, by simpa using hi, List.mem_map.2 ⟨l, hl, rfl⟩⟩

theorem reduceVec_defs (cfg : Cfg) (os : List (List ℕ)) (ho : cfg.orders = some os) (oo : List ℕ)
    (hoo : oo ∈ os) : ∃ t ∈ genReduceVec cfg, Var.val (valName oo) ∈ t.defs := by
  unfold genReduceVec
  rw [ho]
  by_cases hv : cfg.vectorValued = true
  · rw [if_pos hv]
    refine ⟨_, List.mem_singleton.2 rfl, ?_⟩
    simp only [Stmt.defs, List.map_map, List.mem_map]
    exact ⟨oo, hoo, rfl⟩
  · rw [if_neg hv]
    refine ⟨Stmt.assignVal (valName oo) (getValues cfg.d false (cfg.k + 1) (some oo)),
      List.mem_append_left _ (List.mem_map.2 ⟨oo, hoo, rfl⟩), by simp [Stmt.defs]⟩

theorem GoodCall.genBasis (h : GoodCall k G C vec m orders) (cfg : Cfg) (hd : cfg.d = G.length)
    (hk : cfg.k = k) (ho : cfg.orders = orders) :
    genBasis cfg = .ok ((List.range cfg.d).flatMap
      fun i => (axisOrders orders i).map fun l => blendStmt cfg.k l i) := by
  apply genBasis_ok
  · intro i hi
    rw [ho]
    apply basesOrders_ok _ _ _ _ hi
    intro os hos
    obtain ⟨h1, h2⟩ := h.ords os hos
    exact ⟨h1, fun oo hoo => by rw [hd]; exact (h2 oo hoo).1⟩
  · intro i hi
    rw [hk]
    exact h.axisOrdersOk i (by omega)

theorem GoodCall.gridCheck (h : GoodCall k G C vec m orders) (cfg : Cfg)
    (ht : cfg.gridTypes = G.map GridDim.gtype) (hk : cfg.k = k) :
    ¬ (¬ (cfg.gridTypes ≠ [] ∧ ∀ t ∈ cfg.gridTypes, t = .uniform) ∧ 1 < cfg.k) := by
  rintro ⟨h1, h2⟩
  rcases h.hk with h3 | h3
  · omega
  · apply h1
    refine ⟨by rw [ht]; simpa using h.ne, ?_⟩
    intro t htm
    rw [ht, List.mem_map] at htm
    obtain ⟨g, hg, rfl⟩ := htm
    exact h.uni h3 g hg

end Interp.Codegen
