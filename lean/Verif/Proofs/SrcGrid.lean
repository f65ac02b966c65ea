import Verif.Proofs.SrcChain

/-!
# The text of `build_grid`
-/

set_option linter.unusedSectionVars false

namespace Interp.Spec.PySrc
open Interp Interp.Smolyak

variable {K : Type} [Add K] [Sub K] [Mul K] [Div K] [Neg K] [Zero K] [One K] [NatCast K] [IntCast K]
  [LT K] [DecidableLT K] [LE K] [DecidableLE K] [BEq K] [IntFloor K] [Interp.Smolyak.Trig K]

/-- The choice of `inds`, followed by what the rest does. -/
theorem inds_sim {n d : ℕ} (hn : d.factorial + d + 3 ≤ n) {env : Env K} {mu : Mu} {inds : Option (List (List ℤ))} (h1 : env "d" = some (.int d))
    (h2 : env "mu" = some (muVal mu)) (h3 : env "inds" = some (indsVal inds)) (h4 : env "None" = none) (h5 : env "smol_inds" = none) (rest : Block)
    {α β : Type} {X : List (List ℤ) → Py α} {g : Out K → M K β} {R : α → β × Heap K → Prop} {h : Heap K}
    (hr : ∀ l env', indsOr d mu inds = pure l → env' "inds" = some (.list (l.map rowVal)) → Agree ["inds"] env env' →
      Sim (X l) ((exec (world smolProg (n + 1)) rest env' >>= g) h) R) :
    Sim (indsOr d mu inds >>= X) ((exec (world smolProg (n + 1)) (.ifte (.chain (.name "inds") (.link .kIs (.name "None") .nil)) (
      .simple (.assign (.name "inds") (.call (.name "smol_inds") (.cons (.name "d") (.cons (.name "mu") .nil)))) <|
      .nil) .nil rest) env >>= g) h) R := by
  have hs : callN smolProg (n + 1) (.fn smolIndsFun) [.int (d : ℤ), muVal mu] = (lift (smolInds d mu) >>= fun r => pure (.list (r.map rowVal)) : M K _) := by
    rw [callN_fn]
    exact smolInds_run n d (by omega) mu
  rcases inds with _ | l
  · pysimp [look, h1, h2, h3, h4, h5, sglob_none, indsVal, is_none_none, sglob_smolInds, hs]
    rw [bind_run, lift_run, bind_assoc]
    simp only [pure_bind]
    rw [indsOr] at hr ⊢
    rcases hl : smolInds d mu with e | l
    · rfl
    · exact hr l _ hl (by pysimp []) (fun s hs => by rw [Env.set]; exact if_neg (by simpa using hs))
  · pysimp [look, h3, h4, sglob_none, indsVal, is_none_list, Bool.false_eq_true]
    exact hr l env rfl h3 (Agree.refl _ _)

theorem grid_like (m : ℕ) : DictLike (K := K) .flt (aChain m) (gridVal (aChain m)) :=
  dictLike_map _ (fun k l => if k ≤ 2 then .list (l.map .flt) else .tup (l.map .flt)) fun p _ => by split <;> rfl

theorem sim_bind_eq {α β γ δ : Type} {x : Py α} {y : Py β} {Q : α → β → Prop} {f : α → Py γ} {g : β → Py δ} {R : γ → δ → Prop} (hs : Sim x y Q)
    (hk : ∀ a b, x = pure a → Q a b → Sim (f a) (g b) R) : Sim (x >>= f) (y >>= g) R := by
  rcases x with e | a <;> rcases y with e' | b
  · exact hs
  · exact hs.elim
  · exact hs.elim
  · exact hk a b rfl hs

/-- What comes after the choice of `inds`. -/
def gridTail : Block :=
  .ifte (.call (.name "isinstance") (.cons (.name "mu") (.cons (.name "int") .nil))) (
    .simple (.assign (.name "An") (.call (.name "a_chain") (.cons (.bin .plus (.name "mu") (.int 1)) .nil))) <|
    .nil) (
    .simple (.assign (.name "An") (.call (.name "a_chain") (.cons (.bin .plus (.call (.name "max") (.cons (.name "mu") .nil)) (.int 1)) .nil))) <|
    .nil) <|
  .simple (.assign (.name "points") (.list .nil)) <|
  .for (.name "el") (.name "inds") buildGridLoop0 <|
  .simple (.assign (.name "grid") (.call (.attr (.name "np") "array") (.cons (.name "points") .nil))) <|
  .simple (.ret (some (.name "grid"))) <|
  .nil

theorem iterProduct_length {α : Type} : ∀ (ls : List (List α)), ∀ p ∈ iterProduct ls, p.length = ls.length
  | [], p, hp => by
    simp only [iterProduct, List.mem_singleton] at hp
    simp [hp]
  | l :: ls, p, hp => by
    simp only [iterProduct, List.mem_flatMap, List.mem_map] at hp
    obtain ⟨x, -, q, hq, rfl⟩ := hp
    simp [iterProduct_length ls q hq]

theorem mapM_length {α β : Type} {f : α → Py β} : ∀ {l : List α} {r : List β}, l.mapM f = pure r → r.length = l.length
  | [], r, h => by cases h; rfl
  | a :: l, r, h => by
    rw [List.mapM_cons] at h
    rcases ha : f a with e | b
    · rw [ha] at h; cases h
    · rcases hl : l.mapM f with e | bs
      · rw [ha, hl] at h; cases h
      · rw [ha, hl] at h
        cases h
        simp [mapM_length hl]

theorem levelProd_length {α : Type} {D : Dict α} {el : List ℤ} {r : List (List α)} (h : levelProd D el = pure r) : ∀ p ∈ r, p.length = el.length := by
  rw [levelProd] at h
  rcases ht : el.mapM (dictGet D) with e | temp
  · rw [ht] at h; cases h
  · rw [ht] at h
    cases h
    intro p hp
    rw [iterProduct_length _ p hp, mapM_length ht]

theorem mapM_mem {α β : Type} {f : α → Py β} : ∀ {l : List α} {r : List β}, l.mapM f = pure r → ∀ b ∈ r, ∃ a ∈ l, f a = pure b
  | [], r, h, b, hb => by cases h; simp at hb
  | a :: l, r, h, b, hb => by
    rw [List.mapM_cons] at h
    rcases ha : f a with e | b'
    · rw [ha] at h; cases h
    · rcases hl : l.mapM f with e | bs
      · rw [ha, hl] at h; cases h
      · rw [ha, hl] at h
        cases h
        rcases List.mem_cons.mp hb with rfl | hb
        · exact ⟨a, by simp, ha⟩
        · obtain ⟨a', h1, h2⟩ := mapM_mem hl b hb
          exact ⟨a', by simp [h1], h2⟩

theorem rowOf_flts (xs : List K) : rowOf (.tup (xs.map .flt) : Val K) = pure xs := numbers_flts xs

theorem rowsOf_flts : ∀ rows : List (List K), (rows.map fun l => (.tup (l.map .flt) : Val K)).mapM rowOf = pure rows
  | [] => rfl
  | l :: rows => by
    rw [List.map_cons, List.mapM_cons, rowOf_flts, rowsOf_flts rows]
    rfl

/-- `np.array(points)`. -/
theorem array_rows {rows : List (List K)} {d : ℕ} (hne : rows ≠ []) (hd : ∀ l ∈ rows, l.length = d) (h : Heap K) :
    ∃ A, builtin .array [tupsVal (K := K) .flt rows] h = pure (.arr h.length [none, none], h ++ [A]) ∧ Alike (ofRows d rows) A := by
  obtain ⟨l, rows, rfl⟩ := List.exists_cons_of_ne_nil hne
  have hl : l.length = d := hd l (by simp)
  refine ⟨matOf (l :: rows), ?_, ?_, fun idx hidx => ?_⟩
  · have hA : arrOf ((l :: rows).map fun l => (.tup (l.map .flt) : Val K)) = pure (matOf (l :: rows)) := by
      have h1 : (((l :: rows).map fun l => (.tup (l.map .flt) : Val K)).all isRow && !((l :: rows).map fun l => (.tup (l.map .flt) : Val K)).isEmpty) = true := by
        simp [isRow]
      rw [arrOf, h1, if_pos rfl, rowsOf_flts, pure_bind, if_pos]
      simp only [List.all_eq_true, List.headD_cons, beq_iff_eq]
      intro x hx
      rw [hd x hx, hl]
    have : builtin .array [tupsVal (K := K) .flt (l :: rows)] = (lift (arrOf ((l :: rows).map fun l => (.tup (l.map .flt) : Val K))) >>= fun A =>
        newArr A >>= fun r => (pure (.arr r (whole A.shape.length)) : M K (Val K))) := rfl
    rw [this, hA]
    rfl
  · simp [ofRows, matOf, hl]
  · obtain ⟨i, j, rfl⟩ : ∃ i j, idx = [i, j] := by
      match idx, hidx with
      | [i, j], _ => exact ⟨i, j, rfl⟩
    rfl

theorem gridTail_run (L : GridLaws K) {n d : ℕ} {env : Env K} {mu : Mu} {l : List (List ℤ)} (h1 : env "mu" = some (muVal mu)) (h2 : env "isinstance" = none)
    (h3 : env "int" = none) (h4 : env "max" = none) (h5 : env "inds" = some (.list (l.map rowVal))) (h6 : env "a_chain" = none)
    (h7 : env "list" = none) (h8 : env "product" = none) (h9 : env "np" = none) (hmu : ∀ m, muMax mu = pure m → 0 ≤ m)
    (hl : ∀ el ∈ l, el.length = d)
    (hne : ∀ m r, muMax mu = pure m → l.mapM (levelProd (aChain (K := K) (m + 1).toNat)) = pure r → r.flatten ≠ []) (h : Heap K) :
    Sim (do
      let m ← muMax mu
      let points ← l.mapM (levelProd (aChain (m + 1).toNat))
      pure (ofRows d points.flatten)) (exec (world smolProg (n + 3)) gridTail env h)
      fun G o => ∃ r A, o.1 = .ret (.arr r [none, none]) ∧ h <+: o.2 ∧ o.2[r]? = some A ∧ Alike G A := by
  have hc (m : ℤ) (hm : 0 ≤ m) : ∃ H, callN smolProg (n + 3) (.fn aChainFun) [(.int (m + ((1 : ℕ) : ℤ)) : Val K)] h =
      pure (.dict (gridVal (aChain (m + 1).toNat)), H) ∧ h <+: H := by
    obtain ⟨H, e, p⟩ := aChain_run L n (m + 1).toNat (by omega) h
    refine ⟨H, ?_, p⟩
    rw [callN_fn, ← e]
    congr 3
    simp
    omega
  have key (m : ℤ) (hm : muMax mu = pure m) (env' : Env K) (H : Heap K) (hp : h <+: H) (he : env' = env.set "An" (.dict (gridVal (aChain (m + 1).toNat)))) :
      Sim (do
        let points ← l.mapM (levelProd (aChain (m + 1).toNat))
        pure (ofRows d points.flatten)) (exec (world smolProg (n + 3)) (
          .simple (.assign (.name "points") (.list .nil)) <|
          .for (.name "el") (.name "inds") buildGridLoop0 <|
          .simple (.assign (.name "grid") (.call (.attr (.name "np") "array") (.cons (.name "points") .nil))) <|
          .simple (.ret (some (.name "grid"))) <|
          .nil) env' H)
        fun G o => ∃ r A, o.1 = .ret (.arr r [none, none]) ∧ h <+: o.2 ∧ o.2[r]? = some A ∧ Alike G A := by
    subst he
    pysimp [look, exec_for, h5, iterate_list]
    rw [bind_run]
    have hloop := prod_loop (K := K) (grid_like (m + 1).toNat) (A := "An") (P := "points") (by decide) (by decide) (n + 2) H l []
      ((env.set "An" (.dict (gridVal (aChain (m + 1).toNat)))).set "points" (.list [])) (by pysimp []) (by pysimp []; rfl)
      (by pysimp [h7]) (by pysimp [h8])
    simp only [assign_name, pure_bind_M] at hloop
    rw [show prodLoop "An" "points" = buildGridLoop0 from rfl] at hloop
    refine sim_bind_eq hloop ?_
    rintro rs o hrs ⟨env1, rfl, hp1, ha⟩
    obtain ⟨A, e, hA⟩ := array_rows (K := K) (rows := rs.flatten) (d := d) (hne m rs hm hrs) (fun p hp => by
      obtain ⟨r, hr, hpr⟩ := List.mem_flatten.mp hp
      obtain ⟨el, hel, he⟩ := mapM_mem hrs r hr
      rw [levelProd_length he p hpr, hl el hel]) H
    rw [List.nil_append] at hp1
    have hnp : env1 "np" = none := by rw [ha _ (by decide)]; pysimp [h9]
    pysimp [look, hnp, sglob_np, attr_array, hp1]
    rw [step e]
    exact Sim.pure ⟨_, A, rfl, hp.trans (List.prefix_append _ _), by simp, hA⟩
  rw [gridTail]
  rcases mu with m | ms
  · simp only [muVal] at h1
    obtain ⟨H, e, p⟩ := hc m (hmu m rfl)
    pysimp [look, h1, h2, h3, h6, sglob_isinstance, sglob_int, isinstance_int, sglob_aChain]
    rw [step e]
    exact key m rfl _ H p rfl
  · simp only [muVal] at h1
    pysimp [look, h1, h2, h3, h4, h6, sglob_isinstance, sglob_int, isinstance_ints, Bool.false_eq_true, sglob_max, max_ints, greatestInt_eq, sglob_aChain]
    rw [show muMax (.aniso ms) = pyMaxList ms from rfl] at hmu hne key ⊢
    rcases hm : pyMaxList ms with e | m
    · rfl
    · obtain ⟨H, e, p⟩ := hc m (hmu m hm)
      have := key m hm _ H p rfl
      pysimp [look] at this
      rw [bind_run, lift_run]
      simp only [ok_bind_py, pure_bind, step e]
      exact this

theorem buildGrid_run (L : GridLaws K) (n d : ℕ) (hn : d.factorial + d + 4 ≤ n) (mu : Mu) (inds : Option (List (List ℤ)))
    (hmu : ∀ m, muMax mu = pure m → 0 ≤ m) (hrows : ∀ l, indsOr d mu inds = pure l → ∀ el ∈ l, el.length = d)
    (hne : ∀ G : NdArray K, buildGrid d mu inds = pure G → G.shape.headD 0 ≠ 0) (h : Heap K) :
    Sim (buildGrid d mu inds) (runFun (world smolProg n) buildGridFun [.int d, muVal mu, indsVal inds] h)
      fun G o => ∃ r A, o.1 = .arr r [none, none] ∧ h <+: o.2 ∧ o.2[r]? = some A ∧ Alike G A := by
  obtain ⟨n, rfl⟩ : ∃ m, n = m + 3 := ⟨n - 3, by have := d.factorial_pos; omega⟩
  rw [runFun, buildGrid, show buildGridFun = ⟨"build_grid", [("d", none), ("mu", none), ("inds", some (.name "None"))],
    .ifte (.chain (.name "inds") (.link .kIs (.name "None") .nil)) (
      .simple (.assign (.name "inds") (.call (.name "smol_inds") (.cons (.name "d") (.cons (.name "mu") .nil)))) <|
      .nil) .nil gridTail⟩ from rfl]
  have hb : params (world smolProg (n + 3)) [("d", none), ("mu", none), ("inds", some (.name "None"))] [.int (d : ℤ), muVal mu, indsVal inds] = (pure
      ((((Env.set (fun _ => none) "inds" (indsVal inds)).set "mu" (muVal mu)).set "d" (.int d)) : Env K) : M K _) := by pysimp []
  simp only [hb, pure_bind_M]
  refine inds_sim (K := K) (n := n + 2) (by omega) rfl rfl rfl rfl rfl gridTail fun l env' hl' hl ha => ?_
  rw [bind_run]
  refine Sim.bind_right (gridTail_run L (mu := mu) (l := l) (d := d) (by rw [ha "mu" (by decide)]; rfl) (by rw [ha "isinstance" (by decide)]; rfl)
    (by rw [ha "int" (by decide)]; rfl) (by rw [ha "max" (by decide)]; rfl) hl (by rw [ha "a_chain" (by decide)]; rfl)
    (by rw [ha "list" (by decide)]; rfl) (by rw [ha "product" (by decide)]; rfl) (by rw [ha "np" (by decide)]; rfl) hmu (hrows l hl') ?_ h) ?_
  · intro m r hm hr h0
    refine hne (ofRows d r.flatten) ?_ ?_
    · rw [buildGrid, hl', pure_bind, hm, pure_bind]
      show l.mapM (levelProd (aChain (K := K) (m + 1).toNat)) >>= _ = _
      rw [hr, pure_bind]
    · rw [h0]; rfl
  · rintro G ⟨o, H⟩ ⟨r, A, rfl, hp, hA, hG⟩
    exact Sim.pure ⟨r, A, rfl, hp, hA, hG⟩

end Interp.Spec.PySrc
