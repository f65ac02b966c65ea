import Verif.Proofs.SrcSolve
import Verif.Proofs.SrcHermite
import Verif.Spec.SrcValues

/-!
# The source text of `_filter_cubic`
-/

namespace Interp.Spec.PySrc
open Interp Interp.Filter
open Interp.Codegen (GridDim)

set_option linter.unusedSectionVars false

variable {K : Type} [Add K] [Sub K] [Mul K] [Div K] [Neg K] [Zero K] [One K] [NatCast K] [IntCast K]
  [LT K] [DecidableLT K] [LE K] [DecidableLE K] [BEq K] [IntFloor K] [Interp.Smolyak.Trig K]

/-- `d` free axes, then the indices `post`. -/
def pat (d : ℕ) (post : List ℕ) : List (Option ℤ) := List.replicate d none ++ post.map fun i => some (Int.ofNat i)

/-- The heap with array `rc` replaced by `A`, and new arrays. -/
def Reach (h : Heap K) (rc : ℕ) (A : NdArray K) (h' : Heap K) : Prop := ∃ t, h' = h.set rc A ++ t

theorem Reach.refl {h : Heap K} {rc : ℕ} {A : NdArray K} (hc : h[rc]? = some A) : Reach h rc A h := by
  refine ⟨[], ?_⟩
  obtain ⟨hl, rfl⟩ := List.getElem?_eq_some_iff.mp hc
  simp

theorem Reach.trans {h h1 h2 : Heap K} {rc : ℕ} {A B : NdArray K} (hl : rc < h.length) (r1 : Reach h rc A h1)
    (r2 : Reach h1 rc B h2) : Reach h rc B h2 := by
  obtain ⟨t1, rfl⟩ := r1
  obtain ⟨t2, rfl⟩ := r2
  refine ⟨t1 ++ t2, ?_⟩
  rw [List.set_append_left _ _ (by simpa using hl), List.set_set, List.append_assoc]

theorem Reach.get {h h' : Heap K} {rc r : ℕ} {A B : NdArray K} (hr : Reach h rc A h') (hne : rc ≠ r) (hB : h[r]? = some B) :
    h'[r]? = some B := by
  obtain ⟨t, rfl⟩ := hr
  obtain ⟨hl, _⟩ := List.getElem?_eq_some_iff.mp hB
  rw [List.getElem?_append_left (by simpa using hl), List.getElem?_set_ne hne, hB]

theorem Reach.self {h h' : Heap K} {rc : ℕ} {A : NdArray K} (hr : Reach h rc A h') (hl : rc < h.length) :
    h'[rc]? = some A := by
  obtain ⟨t, rfl⟩ := hr
  rw [List.getElem?_append_left (by simpa using hl), List.getElem?_set_self hl]

theorem AxisVal.reach {h h' : Heap K} {rc : ℕ} {A : NdArray K} {v : Val K} {g : GridDim K} (hv : AxisVal h v g)
    (ho : Other rc v) (hr : Reach h rc A h') : AxisVal h' v g := by
  cases g with
  | uniform a b n => exact hv
  | array gc =>
    obtain ⟨r, rfl, B, hB, hV⟩ := hv
    exact ⟨r, rfl, B, hr.get (ho r _ rfl).symm hB, hV⟩

/-! ### Views -/

theorem linePat_incomplete (l : Line) (post : List ℕ) : complete (linePat l post) = none := by
  rw [linePat, complete_somes]; rfl

theorem item_pat {r : ℕ} {d : ℕ} {post : List ℕ} {ss : List Ix} {l : Line}
    (h : refine (pat d post) (expand (free (pat d post)) ss) = some (linePat l post)) :
    item (.arr r (pat d post) : Val K) ss = pure (.arr r (linePat l post)) :=
  item_view h (linePat_incomplete l post)

theorem free_pat (d : ℕ) (post : List ℕ) : free (pat d post) = d := by
  simp [free, pat, List.filter_append, List.filter_map, Function.comp_def]

section
variable (r : ℕ) (post : List ℕ) (a b c : ℕ)
theorem v1 : (pat 1 post) = linePat ⟨[], []⟩ post := rfl
theorem v2a : item (.arr r (pat 2 post) : Val K) [.full, .at (a : ℤ)] = pure (.arr r (linePat ⟨[], [a]⟩ post)) := by
  apply item_pat; rw [free_pat]; simp [pat, linePat, List.replicate, expand, refine_at, refine_full, refine_nil]
theorem v2b : item (.arr r (pat 2 post) : Val K) [.at (a : ℤ), .full] = pure (.arr r (linePat ⟨[a], []⟩ post)) := by
  apply item_pat; rw [free_pat]; simp [pat, linePat, List.replicate, expand, refine_at, refine_full, refine_nil]
theorem v3a : item (.arr r (pat 3 post) : Val K) [.full, .at (a : ℤ), .at (b : ℤ)] = pure (.arr r (linePat ⟨[], [a, b]⟩ post)) := by
  apply item_pat; rw [free_pat]; simp [pat, linePat, List.replicate, expand, refine_at, refine_full, refine_nil]
theorem v3b : item (.arr r (pat 3 post) : Val K) [.at (a : ℤ), .full, .at (b : ℤ)] = pure (.arr r (linePat ⟨[a], [b]⟩ post)) := by
  apply item_pat; rw [free_pat]; simp [pat, linePat, List.replicate, expand, refine_at, refine_full, refine_nil]
theorem v3c : item (.arr r (pat 3 post) : Val K) [.at (a : ℤ), .at (b : ℤ), .full] = pure (.arr r (linePat ⟨[a, b], []⟩ post)) := by
  apply item_pat; rw [free_pat]; simp [pat, linePat, List.replicate, expand, refine_at, refine_full, refine_nil]
theorem v4a : item (.arr r (pat 4 post) : Val K) [.full, .at (a : ℤ), .at (b : ℤ), .at (c : ℤ)] =
    pure (.arr r (linePat ⟨[], [a, b, c]⟩ post)) := by
  apply item_pat; rw [free_pat]; simp [pat, linePat, List.replicate, expand, refine_at, refine_full, refine_nil]
theorem v4b : item (.arr r (pat 4 post) : Val K) [.at (a : ℤ), .full, .at (b : ℤ), .at (c : ℤ)] =
    pure (.arr r (linePat ⟨[a], [b, c]⟩ post)) := by
  apply item_pat; rw [free_pat]; simp [pat, linePat, List.replicate, expand, refine_at, refine_full, refine_nil]
theorem v4c : item (.arr r (pat 4 post) : Val K) [.at (a : ℤ), .at (b : ℤ), .full, .at (c : ℤ)] =
    pure (.arr r (linePat ⟨[a, b], [c]⟩ post)) := by
  apply item_pat; rw [free_pat]; simp [pat, linePat, List.replicate, expand, refine_at, refine_full, refine_nil]
theorem v4d : item (.arr r (pat 4 post) : Val K) [.at (a : ℤ), .at (b : ℤ), .at (c : ℤ), .full] =
    pure (.arr r (linePat ⟨[a, b, c], []⟩ post)) := by
  apply item_pat; rw [free_pat]; simp [pat, linePat, List.replicate, expand, refine_at, refine_full, refine_nil]
end

theorem viewShape_pat (d : ℕ) (post sh t : List ℕ) (h : sh.length = d) : viewShape (pat d post) (sh ++ t) = sh := by
  induction d generalizing sh with
  | zero =>
    obtain rfl : sh = [] := List.length_eq_zero_iff.mp h
    exact viewShape_somes' post t
  | succ d ih =>
    obtain ⟨n, sh, rfl⟩ := List.exists_cons_of_length_eq_add_one h
    rw [show pat (d + 1) post = none :: pat d post from rfl, List.cons_append, viewShape, ih sh (by simpa using h)]

theorem shape_step {α : Type} {r d : ℕ} {post t : List ℕ} {A D : NdArray K} {h : Heap K} (hr : h[r]? = some (fill A t post D))
    (hd : D.shape.length = d) (k : Val K → M K α) :
    (getAttr (.arr r (pat d post) : Val K) "shape" >>= k) h = k (.tup (D.shape.map fun (n : ℕ) => .int (n : ℤ))) h := by
  rw [step (shape_run hr), show (fill A t post D).shape = D.shape ++ t from rfl, viewShape_pat d post _ t hd]

/-! ### The parts of the inner functions -/

theorem dinv_step {α : Type} (L : LitLaws K) {h : Heap K} {v : Val K} {g : GridDim K} (hv : AxisVal h v g) (k : Val K → M K α) :
    (item v [.at ((1 : ℕ) : ℤ)] >>= fun a => item v [.at ((0 : ℕ) : ℤ)] >>= fun b => binOp .minus a b >>= fun c =>
      item v [.at ((2 : ℕ) : ℤ)] >>= fun d => binOp .slash c d >>= k) h = dinv g >>= fun x => k (.flt x) h := by
  cases g with
  | uniform a b n =>
    simp only [AxisVal] at hv
    subst hv
    pysimp [dinv, L.int]
    rw [lift_bind_run]
  | array gc =>
    obtain ⟨r, rfl, B, hB, hV⟩ := hv
    pysimp [rdElem_eq, dinv]
    have hrd {β : Type} (z : ℤ) (f : K → M K β) : (rdF r [z] >>= f) h = listRead gc z >>= fun x => f x h := by
      rw [bind_run, rdF_run hB, hV.read, bind_assoc]; rfl
    simp only [hrd, bind_assoc, lift_bind_run, Nat.cast_ofNat, Nat.cast_zero, Nat.cast_one]

theorem zeros_step {α : Type} (a : ℕ) (k : Val K → M K α) (h : Heap K) :
    (builtin .zeros [(.tup [.int ((a : ℤ) + ((2 : ℕ) : ℤ)), .int ((4 : ℕ) : ℤ)] : Val K)] >>= k) h =
      k (.arr h.length [none, none]) (h ++ [.zeros [a + 2, 4]]) := by
  have h1 : (0 : ℤ) ≤ (a : ℤ) + ((2 : ℕ) : ℤ) := by omega
  have h2 : ((a : ℤ) + ((2 : ℕ) : ℤ)).toNat = a + 2 := by omega
  rw [step (a := .arr h.length [none, none]) (h' := h ++ [.zeros [a + 2, 4]])]
  simp only [builtin, sizes, h1, h2, Int.natCast_nonneg, if_true, Except.map, Pure.pure, Except.pure, Int.toNat_natCast]
  rfl

/-- The heap while a function of `_filter_cubic` is running. -/
def Bands (h : Heap K) (rc : ℕ) (A0 : NdArray K) (t post : List ℕ) (m : ℕ) (sh : List ℕ) (s : NdArray K × NdArray K)
    (h' : Heap K) : Prop :=
  h' = h.set rc (fill A0 t post s.2) ++ [s.1] ∧ s.1.shape = [m + 2, 4] ∧ s.2.shape = sh

theorem Bands.start {h : Heap K} {rc : ℕ} {A0 : NdArray K} {t post : List ℕ} {S : NdArray K} (m : ℕ)
    (hc : h[rc]? = some (fill A0 t post S)) :
    Bands h rc A0 t post m S.shape (.zeros [m + 2, 4], S) (h ++ [.zeros [m + 2, 4]]) := by
  refine ⟨?_, rfl, rfl⟩
  obtain ⟨hl, he⟩ := List.getElem?_eq_some_iff.mp hc
  rw [← he]; simp

theorem Bands.reach {h h' : Heap K} {rc : ℕ} {A0 : NdArray K} {t post : List ℕ} {m : ℕ} {sh : List ℕ}
    {s : NdArray K × NdArray K} (hb : Bands h rc A0 t post m sh s h') : Reach h rc (fill A0 t post s.2) h' := ⟨_, hb.1⟩

theorem two_append (h : Heap K) {rc : ℕ} (hc : rc < h.length) (B B' A : NdArray K) :
    two (h ++ [B']) h.length rc B A = h.set rc A ++ [B] := by
  rw [two, List.set_append_right _ _ le_rfl, List.set_append_left _ _ hc]
  simp

/-- One call of `find_coefs_1d` for data in another array. -/
theorem findD_sim (L : LitLaws K) (h3 : (((3 : ℕ) : K) == 0) = false) (h6 : (((6 : ℕ) : K) == 0) = false) (n : ℕ)
    {h H : Heap K} {rc rd : ℕ} (hc : rc < h.length) (hne : rc ≠ rd) {t post : List ℕ} (hp : InShape t post) {A0 : NdArray K}
    {A1 D : NdArray K} {t' : List ℕ} (hp' : InShape t' post) (hd : h[rd]? = some (fill A1 t' post D))
    {m : ℕ} {sh : List ℕ} {s : NdArray K × NdArray K} (hR : Bands h rc A0 t post m sh s H) (l : Line) (hl : l.pre.length < sh.length)
    (δ : K) :
    Sim (findCoefs1d δ (some D) l s)
      (runFun (world filterProg (n + 2)) findCoefsFun
        [.flt δ, .arr rd (linePat l post), .arr rc (linePat l post), .arr h.length [none, none]] H)
      (fun s' o => Bands h rc A0 t post m sh s' o.2) := by
  obtain ⟨rfl, hB, hS⟩ := hR
  have hrd : rd < h.length := (List.getElem?_eq_some_iff.mp hd).1
  rw [← two_append h hc s.1 s.1, find_run L h3 h6 n (by simp) (by simp; omega) (by omega) hp A0 s.1 s.2 l (by rw [hS]; exact hl) hB δ
    (some D) _ rd (fun z => l.pos z ++ post.map Int.ofNat) (fun z => item_line rd l post z)]
  · refine Sim.mono (Sim.keep (sim_of_eq (f := fun s' => (.none, two (h ++ [s.1]) h.length rc s'.1 (fill A0 t post s'.2))) rfl
      (Q := fun s' o => o = (.none, two (h ++ [s.1]) h.length rc s'.1 (fill A0 t post s'.2))) fun _ => rfl) (find_shape δ _ l s)) ?_
    rintro s' _ ⟨rfl, h1, h2⟩
    exact ⟨two_append h hc _ _ _, h1.trans hB, h2.trans hS⟩
  · intro B
    refine ⟨fill A1 t' post D, ?_, fun z => fill_read hp' D _⟩
    rw [two_ne (by omega) hne, List.getElem?_append_left hrd, hd]

/-- One call of `find_coefs_1d` for data in the same array. -/
theorem findC_sim (L : LitLaws K) (h3 : (((3 : ℕ) : K) == 0) = false) (h6 : (((6 : ℕ) : K) == 0) = false) (n : ℕ)
    {h H : Heap K} {rc : ℕ} (hc : rc < h.length) {t post : List ℕ} (hp : InShape t post) {A0 : NdArray K}
    {m : ℕ} {sh : List ℕ} {s : NdArray K × NdArray K} (hR : Bands h rc A0 t post m sh s H) (l : Line) (hl : l.pre.length < sh.length)
    (δ : K) :
    Sim (findCoefs1d δ none l s)
      (runFun (world filterProg (n + 2)) findCoefsFun
        [.flt δ, .arr rc (linePat l post), .arr rc (linePat l post), .arr h.length [none, none]] H)
      (fun s' o => Bands h rc A0 t post m sh s' o.2) := by
  obtain ⟨rfl, hB, hS⟩ := hR
  rw [← two_append h hc s.1 s.1, find_run L h3 h6 n (by simp) (by simp; omega) (by omega) hp A0 s.1 s.2 l (by rw [hS]; exact hl) hB δ
    none _ rc (fun z => l.pos z ++ post.map Int.ofNat) (fun z => item_line rc l post z)]
  · refine Sim.mono (Sim.keep (sim_of_eq (f := fun s' => (.none, two (h ++ [s.1]) h.length rc s'.1 (fill A0 t post s'.2))) rfl
      (Q := fun s' o => o = (.none, two (h ++ [s.1]) h.length rc s'.1 (fill A0 t post s'.2))) fun _ => rfl) (find_shape δ _ l s)) ?_
    rintro s' _ ⟨rfl, h1, h2⟩
    exact ⟨two_append h hc _ _ _, h1.trans hB, h2.trans hS⟩
  · intro B
    exact ⟨fill A0 t post s.2, two_c (by simp; omega) _ _, fun z => fill_read hp s.2 _⟩

/-- A statement that is a call. -/
theorem stmt_sim {α S : Type} {x : Py S} {y : M K α} {H : Heap K} {R : S → Heap K → Prop} {env0 env : Env K} {names : List String}
    (h : Sim x (y H) fun s o => R s o.2) (ha : Agree names env0 env) :
    Sim x ((y >>= fun _ => pure (.next env)) H) (Next fun s env' H' => Agree names env0 env' ∧ R s H') := by
  rw [bind_run]
  exact Sim.bind_right h fun a b hab => Sim.pure ⟨env, rfl, ha, hab⟩

/-- What a function of `_filter_cubic` leaves. -/
def Done (h : Heap K) (rc : ℕ) (A0 : NdArray K) (t post sh : List ℕ) (S : NdArray K) (o : Val K × Heap K) : Prop :=
  o.1 = .none ∧ Reach h rc (fill A0 t post S) o.2 ∧ S.shape = sh

theorem Reach.next {h H : Heap K} {rc : ℕ} {A0 : NdArray K} {t post : List ℕ} {sh : List ℕ}
    {S : NdArray K} (hc : rc < h.length) (hr : Reach h rc (fill A0 t post S) H) (hS : S.shape = sh) (m : ℕ) :
    Bands H rc A0 t post m sh (.zeros [m + 2, 4], S) (H ++ [.zeros [m + 2, 4]]) :=
  hS ▸ Bands.start m (hr.self hc)

theorem Reach.length {h H : Heap K} {rc : ℕ} {A : NdArray K} (hr : Reach h rc A H) (hc : rc < h.length) : rc < H.length :=
  (List.getElem?_eq_some_iff.mp (hr.self hc)).1

section
variable (L : LitLaws K) (h3 : (((3 : ℕ) : K) == 0) = false) (h6 : (((6 : ℕ) : K) == 0) = false) (n : ℕ)
  {h : Heap K} {rc rd : ℕ} (hne : rc ≠ rd) {t post : List ℕ} (hp : InShape t post) {A0 S : NdArray K}
  (hc : h[rc]? = some (fill A0 t post S)) {A1 D : NdArray K} {t' : List ℕ} (hp' : InShape t' post)
  (hd : h[rd]? = some (fill A1 t' post D))
include L h3 h6 hne hp hc hp' hd

theorem inner1 {v0 : Val K} {g0 : GridDim K} (hv0 : AxisVal h v0 g0) (hD : D.shape.length = 1) (hS : S.shape.length = 1) :
    Sim (filter1 g0 D S)
      (runFun (world filterProg (n + 3)) ⟨"___filter_cubic", [("grid", none), ("D", none), ("C", none)], filterFun2⟩
        [.tup [v0], .arr rd (pat 1 post), .arr rc (pat 1 post)] h) (Done h rc A0 t post S.shape) := by
  obtain ⟨Mx, hMx⟩ : ∃ a, D.shape = [a] := List.length_eq_one_iff.mp hD
  have hcl : rc < h.length := (List.getElem?_eq_some_iff.mp hc).1
  rw [runFun]
  pysimp [filterFun2, look]
  rw [dinv_step L hv0, filter1]
  refine Sim.bind_same fun δ => ?_
  pysimp [look, fglob_np, fglob_find]
  rw [shape_step hd hD, hMx]
  pysimp [look, fglob_np, fglob_find, List.map_cons, callN_fn]
  rw [zeros_step]
  simp only [v1, List.getD_cons_zero]
  rw [bind_run]
  refine Sim.bind (findD_sim L h3 h6 n hcl hne hp hp' hd (Bands.start Mx hc) ⟨[], []⟩ (by simp [hS]) δ) ?_
  rintro s o hR
  exact Sim.pure ⟨rfl, hR.reach, hR.2.2⟩

theorem inner2 {v0 v1 : Val K} {g0 g1 : GridDim K} (hv0 : AxisVal h v0 g0) (hv1 : AxisVal h v1 g1)
    (hD : D.shape.length = 2) (hS : S.shape.length = 2) :
    Sim (filter2 g0 g1 D S)
      (runFun (world filterProg (n + 3)) ⟨"___filter_cubic", [("grid", none), ("D", none), ("C", none)], filterFun5⟩
        [.tup [v0, v1], .arr rd (pat 2 post), .arr rc (pat 2 post)] h) (Done h rc A0 t post S.shape) := by
  obtain ⟨Mx, My, hM⟩ : ∃ a b, D.shape = [a, b] := List.length_eq_two.mp hD
  have hcl : rc < h.length := (List.getElem?_eq_some_iff.mp hc).1
  rw [runFun]
  pysimp [filterFun5, look]
  rw [dinv_step L hv0, filter2]
  refine Sim.bind_same fun δ0 => ?_
  pysimp [look]
  rw [dinv_step L hv1]
  refine Sim.bind_same fun δ1 => ?_
  rw [shape_step hd hD, hM]
  pysimp [look, List.map_cons]
  rw [shape_step hd hD, hM]
  pysimp [look, List.map_cons, fglob_np]
  rw [zeros_step]
  simp only [List.getD_cons_zero, List.getD_cons_succ]
  rw [bind_run]
  generalize he : Env.set _ "bands" _ = env0
  have he0 (s : String) := congrFun he.symm s
  refine Sim.bind_right (Q := fun s' o => ∃ env, o.1 = .next env ∧ Reach h rc (fill A0 t post s') o.2 ∧ s'.shape = S.shape) ?_ ?_
  · refine for_sim (names := ["iy"]) (R := Bands h rc A0 t post Mx S.shape)
      (by pysimp [look, he0, fglob_range]) (fun _ => rfl) (by pysimp [he0]) (Bands.start Mx hc) ?_ ?_
    · intro iy hiy s H env' e hR
      pysimp [filterLoop3, look, e _, he0, fglob_find, v2a, callN_fn]
      exact stmt_sim (findD_sim L h3 h6 n hcl hne hp hp' hd hR ⟨[], [iy]⟩ (by simp [hS]) δ0) (e.set (by simp) _)
    intro s H env1 e1 hR
    have hH := hR.reach.length hcl
    pysimp [look, e1 _, he0, fglob_np]
    rw [zeros_step]
    generalize he' : Env.set env1 "bands" _ = env2
    have he1 (s : String) := congrFun he'.symm s
    refine for_sim (names := ["ix"]) (R := Bands H rc A0 t post My S.shape)
      (by pysimp [look, he1, e1 _, he0, fglob_range]) (fun _ => rfl) (by pysimp [he1, e1 _, he0]; rfl) (hR.reach.next hcl hR.2.2 My) ?_ ?_
    · intro ix hix s H env' e hR
      pysimp [filterLoop4, look, e _, he1, e1 _, he0, fglob_find, v2b, callN_fn]
      exact stmt_sim (findC_sim L h3 h6 n hH hp hR ⟨[ix], []⟩ (by simp [hS]) δ0) (e.set (by simp) _)
    intro s' H' env3 e3 hR'
    exact Sim.pure ⟨_, rfl, hR.reach.trans hcl hR'.reach, hR'.2.2⟩
  · rintro s ⟨_, H⟩ ⟨env, rfl, hr⟩
    exact Sim.pure ⟨rfl, hr⟩
theorem inner3 {v0 v1 v2 : Val K} {g0 g1 g2 : GridDim K} (hv0 : AxisVal h v0 g0) (hv1 : AxisVal h v1 g1) (hv2 : AxisVal h v2 g2)
    (hD : D.shape.length = 3) (hS : S.shape.length = 3) :
    Sim (filter3 g0 g1 g2 D S)
      (runFun (world filterProg (n + 3)) ⟨"___filter_cubic", [("grid", none), ("D", none), ("C", none)], filterFun12⟩
        [.tup [v0, v1, v2], .arr rd (pat 3 post), .arr rc (pat 3 post)] h) (Done h rc A0 t post S.shape) := by
  obtain ⟨Mx, My, Mz, hM⟩ : ∃ a b c, D.shape = [a, b, c] := by
    match D.shape, hD with
    | [a, b, c], _ => exact ⟨_, _, _, rfl⟩
  have hcl : rc < h.length := (List.getElem?_eq_some_iff.mp hc).1
  rw [runFun]
  pysimp [filterFun12, look]
  rw [dinv_step L hv0, filter3]
  refine Sim.bind_same fun δ0 => ?_
  pysimp [look]
  rw [dinv_step L hv1]
  refine Sim.bind_same fun δ1 => ?_
  rw [dinv_step L hv2]
  refine Sim.bind_same fun δ2 => ?_
  rw [shape_step hd hD, hM]
  pysimp [look, List.map_cons, fglob_np]
  rw [shape_step hd hD, hM]
  pysimp [look, List.map_cons, fglob_np]
  rw [shape_step hd hD, hM]
  pysimp [look, List.map_cons, fglob_np]
  rw [zeros_step]
  simp only [List.getD_cons_zero, List.getD_cons_succ]
  rw [bind_run]
  generalize he : Env.set _ "bands" _ = env0
  have he0 (s : String) := congrFun he.symm s
  refine Sim.bind_right (Q := fun s' o => ∃ env, o.1 = .next env ∧ Reach h rc (fill A0 t post s') o.2 ∧ s'.shape = S.shape) ?_ ?_
  · have r0 : Reach h rc (fill A0 t post S) h := .refl hc
    have s0 : S.shape = S.shape := rfl
    have c0 := hcl
    refine for_sim (names := ["iy", "iz"]) (R := Bands h rc A0 t post Mx S.shape)
      (by pysimp [look, he0, fglob_range]) (fun _ => rfl) (by pysimp [he0]; try rfl) (r0.next hcl s0 Mx) ?_ ?_
    · intro iy hx0 s H env' eiy hR
      refine Sim.mono (for_sim_nil (names := ["iz"]) (R := Bands h rc A0 t post Mx S.shape)
        (by pysimp [look, eiy _, he0, fglob_range]) (fun _ => rfl) (by pysimp [eiy _, he0]; try rfl) hR ?_)
        fun s o ⟨env'', h1, ha, hR⟩ => ⟨env'', h1, Agree.trans eiy ha (by simp) (by simp), hR⟩
      intro iz hx1 s H env' eiz hR
      pysimp [filterLoop6, look, eiz _, eiy _, he0, fglob_find, v3a, callN_fn]
      exact stmt_sim (findD_sim L h3 h6 n c0 hne hp hp' hd hR ⟨[], [iy, iz]⟩ (by simp [hS]) δ0) (eiz.set (by simp) _)
    intro s1' H1 env1 E1 hR1
    have r1 := r0.trans hcl hR1.reach
    have s1 := hR1.2.2
    have c1 := r1.length hcl
    pysimp [look, E1 _, he0, fglob_np]
    rw [zeros_step]
    generalize hE1 : Env.set env1 "bands" _ = F1
    have hF1 (s : String) := congrFun hE1.symm s
    refine for_sim (names := ["ix", "iz"]) (R := Bands H1 rc A0 t post My S.shape)
      (by pysimp [look, hF1, E1 _, he0, fglob_range]) (fun _ => rfl) (by pysimp [hF1, E1 _, he0]; try rfl) (r1.next hcl s1 My) ?_ ?_
    · intro ix hx0 s H env' eix hR
      refine Sim.mono (for_sim_nil (names := ["iz"]) (R := Bands H1 rc A0 t post My S.shape)
        (by pysimp [look, eix _, hF1, E1 _, he0, fglob_range]) (fun _ => rfl) (by pysimp [eix _, hF1, E1 _, he0]; try rfl) hR ?_)
        fun s o ⟨env'', h1, ha, hR⟩ => ⟨env'', h1, Agree.trans eix ha (by simp) (by simp), hR⟩
      intro iz hx1 s H env' eiz hR
      pysimp [filterLoop8, look, eiz _, eix _, hF1, E1 _, he0, fglob_find, v3b, callN_fn]
      exact stmt_sim (findC_sim L h3 h6 n c1 hp hR ⟨[ix], [iz]⟩ (by simp [hS]) δ1) (eiz.set (by simp) _)
    intro s2' H2 env2 E2 hR2
    have r2 := r1.trans hcl hR2.reach
    have s2 := hR2.2.2
    have c2 := r2.length hcl
    pysimp [look, E2 _, hF1, E1 _, he0, fglob_np]
    rw [zeros_step]
    generalize hE2 : Env.set env2 "bands" _ = F2
    have hF2 (s : String) := congrFun hE2.symm s
    refine for_sim (names := ["ix", "iy"]) (R := Bands H2 rc A0 t post Mz S.shape)
      (by pysimp [look, hF2, E2 _, hF1, E1 _, he0, fglob_range]) (fun _ => rfl) (by pysimp [hF2, E2 _, hF1, E1 _, he0]; try rfl) (r2.next hcl s2 Mz) ?_ ?_
    · intro ix hx0 s H env' eix hR
      refine Sim.mono (for_sim_nil (names := ["iy"]) (R := Bands H2 rc A0 t post Mz S.shape)
        (by pysimp [look, eix _, hF2, E2 _, hF1, E1 _, he0, fglob_range]) (fun _ => rfl) (by pysimp [eix _, hF2, E2 _, hF1, E1 _, he0]; try rfl) hR ?_)
        fun s o ⟨env'', h1, ha, hR⟩ => ⟨env'', h1, Agree.trans eix ha (by simp) (by simp), hR⟩
      intro iy hx1 s H env' eiy hR
      pysimp [filterLoop10, look, eiy _, eix _, hF2, E2 _, hF1, E1 _, he0, fglob_find, v3c, callN_fn]
      exact stmt_sim (findC_sim L h3 h6 n c2 hp hR ⟨[ix, iy], []⟩ (by simp [hS]) δ2) (eiy.set (by simp) _)
    intro s3' H3 env3 E3 hR3
    have r3 := r2.trans hcl hR3.reach
    have s3 := hR3.2.2
    have c3 := r3.length hcl
    exact Sim.pure ⟨_, rfl, r3, s3⟩
  · rintro s ⟨_, H⟩ ⟨env, rfl, hr⟩
    exact Sim.pure ⟨rfl, hr⟩

theorem inner4 {v0 v1 v2 v3 : Val K} {g0 g1 g2 g3 : GridDim K} (hv0 : AxisVal h v0 g0) (hv1 : AxisVal h v1 g1) (hv2 : AxisVal h v2 g2) (hv3 : AxisVal h v3 g3)
    (hD : D.shape.length = 4) (hS : S.shape.length = 4) :
    Sim (filter4 g0 g1 g2 g3 D S)
      (runFun (world filterProg (n + 3)) ⟨"___filter_cubic", [("grid", none), ("D", none), ("C", none)], filterFun25⟩
        [.tup [v0, v1, v2, v3], .arr rd (pat 4 post), .arr rc (pat 4 post)] h) (Done h rc A0 t post S.shape) := by
  obtain ⟨Mx, My, Mz, Mz4, hM⟩ : ∃ a b c e, D.shape = [a, b, c, e] := by
    match D.shape, hD with
    | [a, b, c, e], _ => exact ⟨_, _, _, _, rfl⟩
  have hcl : rc < h.length := (List.getElem?_eq_some_iff.mp hc).1
  rw [runFun]
  pysimp [filterFun25, look]
  rw [dinv_step L hv0, filter4]
  refine Sim.bind_same fun δ0 => ?_
  pysimp [look]
  rw [dinv_step L hv1]
  refine Sim.bind_same fun δ1 => ?_
  rw [dinv_step L hv2]
  refine Sim.bind_same fun δ2 => ?_
  rw [dinv_step L hv3]
  refine Sim.bind_same fun δ3 => ?_
  rw [shape_step hd hD, hM]
  pysimp [look, List.map_cons, fglob_np]
  rw [shape_step hd hD, hM]
  pysimp [look, List.map_cons, fglob_np]
  rw [shape_step hd hD, hM]
  pysimp [look, List.map_cons, fglob_np]
  rw [shape_step hd hD, hM]
  pysimp [look, List.map_cons, fglob_np]
  rw [zeros_step]
  simp only [List.getD_cons_zero, List.getD_cons_succ]
  rw [bind_run]
  generalize he : Env.set _ "bands" _ = env0
  have he0 (s : String) := congrFun he.symm s
  refine Sim.bind_right (Q := fun s' o => ∃ env, o.1 = .next env ∧ Reach h rc (fill A0 t post s') o.2 ∧ s'.shape = S.shape) ?_ ?_
  · have r0 : Reach h rc (fill A0 t post S) h := .refl hc
    have s0 : S.shape = S.shape := rfl
    have c0 := hcl
    refine for_sim (names := ["iy", "iz", "iz4"]) (R := Bands h rc A0 t post Mx S.shape)
      (by pysimp [look, he0, fglob_range]) (fun _ => rfl) (by pysimp [he0]; try rfl) (r0.next hcl s0 Mx) ?_ ?_
    · intro iy hx0 s H env' eiy hR
      refine Sim.mono (for_sim_nil (names := ["iz", "iz4"]) (R := Bands h rc A0 t post Mx S.shape)
        (by pysimp [look, eiy _, he0, fglob_range]) (fun _ => rfl) (by pysimp [eiy _, he0]; try rfl) hR ?_)
        fun s o ⟨env'', h1, ha, hR⟩ => ⟨env'', h1, Agree.trans eiy ha (by simp) (by simp), hR⟩
      intro iz hx1 s H env' eiz hR
      refine Sim.mono (for_sim_nil (names := ["iz4"]) (R := Bands h rc A0 t post Mx S.shape)
        (by pysimp [look, eiz _, eiy _, he0, fglob_range]) (fun _ => rfl) (by pysimp [eiz _, eiy _, he0]; try rfl) hR ?_)
        fun s o ⟨env'', h1, ha, hR⟩ => ⟨env'', h1, Agree.trans eiz ha (by simp) (by simp), hR⟩
      intro iz4 hx2 s H env' eiz4 hR
      pysimp [filterLoop13, look, eiz4 _, eiz _, eiy _, he0, fglob_find, v4a, callN_fn]
      exact stmt_sim (findD_sim L h3 h6 n c0 hne hp hp' hd hR ⟨[], [iy, iz, iz4]⟩ (by simp [hS]) δ0) (eiz4.set (by simp) _)
    intro s1' H1 env1 E1 hR1
    have r1 := r0.trans hcl hR1.reach
    have s1 := hR1.2.2
    have c1 := r1.length hcl
    pysimp [look, E1 _, he0, fglob_np]
    rw [zeros_step]
    generalize hE1 : Env.set env1 "bands" _ = F1
    have hF1 (s : String) := congrFun hE1.symm s
    refine for_sim (names := ["ix", "iz", "iz4"]) (R := Bands H1 rc A0 t post My S.shape)
      (by pysimp [look, hF1, E1 _, he0, fglob_range]) (fun _ => rfl) (by pysimp [hF1, E1 _, he0]; try rfl) (r1.next hcl s1 My) ?_ ?_
    · intro ix hx0 s H env' eix hR
      refine Sim.mono (for_sim_nil (names := ["iz", "iz4"]) (R := Bands H1 rc A0 t post My S.shape)
        (by pysimp [look, eix _, hF1, E1 _, he0, fglob_range]) (fun _ => rfl) (by pysimp [eix _, hF1, E1 _, he0]; try rfl) hR ?_)
        fun s o ⟨env'', h1, ha, hR⟩ => ⟨env'', h1, Agree.trans eix ha (by simp) (by simp), hR⟩
      intro iz hx1 s H env' eiz hR
      refine Sim.mono (for_sim_nil (names := ["iz4"]) (R := Bands H1 rc A0 t post My S.shape)
        (by pysimp [look, eiz _, eix _, hF1, E1 _, he0, fglob_range]) (fun _ => rfl) (by pysimp [eiz _, eix _, hF1, E1 _, he0]; try rfl) hR ?_)
        fun s o ⟨env'', h1, ha, hR⟩ => ⟨env'', h1, Agree.trans eiz ha (by simp) (by simp), hR⟩
      intro iz4 hx2 s H env' eiz4 hR
      pysimp [filterLoop16, look, eiz4 _, eiz _, eix _, hF1, E1 _, he0, fglob_find, v4b, callN_fn]
      exact stmt_sim (findC_sim L h3 h6 n c1 hp hR ⟨[ix], [iz, iz4]⟩ (by simp [hS]) δ1) (eiz4.set (by simp) _)
    intro s2' H2 env2 E2 hR2
    have r2 := r1.trans hcl hR2.reach
    have s2 := hR2.2.2
    have c2 := r2.length hcl
    pysimp [look, E2 _, hF1, E1 _, he0, fglob_np]
    rw [zeros_step]
    generalize hE2 : Env.set env2 "bands" _ = F2
    have hF2 (s : String) := congrFun hE2.symm s
    refine for_sim (names := ["ix", "iy", "iz4"]) (R := Bands H2 rc A0 t post Mz S.shape)
      (by pysimp [look, hF2, E2 _, hF1, E1 _, he0, fglob_range]) (fun _ => rfl) (by pysimp [hF2, E2 _, hF1, E1 _, he0]; try rfl) (r2.next hcl s2 Mz) ?_ ?_
    · intro ix hx0 s H env' eix hR
      refine Sim.mono (for_sim_nil (names := ["iy", "iz4"]) (R := Bands H2 rc A0 t post Mz S.shape)
        (by pysimp [look, eix _, hF2, E2 _, hF1, E1 _, he0, fglob_range]) (fun _ => rfl) (by pysimp [eix _, hF2, E2 _, hF1, E1 _, he0]; try rfl) hR ?_)
        fun s o ⟨env'', h1, ha, hR⟩ => ⟨env'', h1, Agree.trans eix ha (by simp) (by simp), hR⟩
      intro iy hx1 s H env' eiy hR
      refine Sim.mono (for_sim_nil (names := ["iz4"]) (R := Bands H2 rc A0 t post Mz S.shape)
        (by pysimp [look, eiy _, eix _, hF2, E2 _, hF1, E1 _, he0, fglob_range]) (fun _ => rfl) (by pysimp [eiy _, eix _, hF2, E2 _, hF1, E1 _, he0]; try rfl) hR ?_)
        fun s o ⟨env'', h1, ha, hR⟩ => ⟨env'', h1, Agree.trans eiy ha (by simp) (by simp), hR⟩
      intro iz4 hx2 s H env' eiz4 hR
      pysimp [filterLoop19, look, eiz4 _, eiy _, eix _, hF2, E2 _, hF1, E1 _, he0, fglob_find, v4c, callN_fn]
      exact stmt_sim (findC_sim L h3 h6 n c2 hp hR ⟨[ix, iy], [iz4]⟩ (by simp [hS]) δ2) (eiz4.set (by simp) _)
    intro s3' H3 env3 E3 hR3
    have r3 := r2.trans hcl hR3.reach
    have s3 := hR3.2.2
    have c3 := r3.length hcl
    pysimp [look, E3 _, hF2, E2 _, hF1, E1 _, he0, fglob_np]
    rw [zeros_step]
    generalize hE3 : Env.set env3 "bands" _ = F3
    have hF3 (s : String) := congrFun hE3.symm s
    refine for_sim (names := ["ix", "iy", "iz"]) (R := Bands H3 rc A0 t post Mz4 S.shape)
      (by pysimp [look, hF3, E3 _, hF2, E2 _, hF1, E1 _, he0, fglob_range]) (fun _ => rfl) (by pysimp [hF3, E3 _, hF2, E2 _, hF1, E1 _, he0]; try rfl) (r3.next hcl s3 Mz4) ?_ ?_
    · intro ix hx0 s H env' eix hR
      refine Sim.mono (for_sim_nil (names := ["iy", "iz"]) (R := Bands H3 rc A0 t post Mz4 S.shape)
        (by pysimp [look, eix _, hF3, E3 _, hF2, E2 _, hF1, E1 _, he0, fglob_range]) (fun _ => rfl) (by pysimp [eix _, hF3, E3 _, hF2, E2 _, hF1, E1 _, he0]; try rfl) hR ?_)
        fun s o ⟨env'', h1, ha, hR⟩ => ⟨env'', h1, Agree.trans eix ha (by simp) (by simp), hR⟩
      intro iy hx1 s H env' eiy hR
      refine Sim.mono (for_sim_nil (names := ["iz"]) (R := Bands H3 rc A0 t post Mz4 S.shape)
        (by pysimp [look, eiy _, eix _, hF3, E3 _, hF2, E2 _, hF1, E1 _, he0, fglob_range]) (fun _ => rfl) (by pysimp [eiy _, eix _, hF3, E3 _, hF2, E2 _, hF1, E1 _, he0]; try rfl) hR ?_)
        fun s o ⟨env'', h1, ha, hR⟩ => ⟨env'', h1, Agree.trans eiy ha (by simp) (by simp), hR⟩
      intro iz hx2 s H env' eiz hR
      pysimp [filterLoop22, look, eiz _, eiy _, eix _, hF3, E3 _, hF2, E2 _, hF1, E1 _, he0, fglob_find, v4d, callN_fn]
      exact stmt_sim (findC_sim L h3 h6 n c3 hp hR ⟨[ix, iy, iz], []⟩ (by simp [hS]) δ3) (eiz.set (by simp) _)
    intro s4' H4 env4 E4 hR4
    have r4 := r3.trans hcl hR4.reach
    have s4 := hR4.2.2
    have c4 := r4.length hcl
    exact Sim.pure ⟨_, rfl, r4, s4⟩
  · rintro s ⟨_, H⟩ ⟨env, rfl, hr⟩
    exact Sim.pure ⟨rfl, hr⟩

end

/-! ### The choice of a function -/

/-- A function inside `__filter_cubic`. -/
abbrev inside (b : Block) : FunDef := ⟨"___filter_cubic", [("grid", none), ("D", none), ("C", none)], b⟩

theorem filter_find : find "_filter_cubic" filterProg.overs = some [filterFun, filterAllocFun] := by
  simp [find, filterProg]

theorem choose_extra (n : ℕ) (vs : List (Val K)) (rd : ℕ) (pd : List (Option ℤ)) (c : Val K) (h : Heap K)
    (hlt : vs.length < free pd) :
    runFun (world filterProg (n + 1)) filterFun [.tup vs, .arr rd pd, c] h = pure (.fn (inside filterFun1), h) := by
  have hlt' : ((vs.length : ℕ) : ℤ) < ((free pd : ℕ) : ℤ) := by exact_mod_cast hlt
  rw [runFun]
  pysimp [filterFun, filterBody, look, fglob_len, hlt', decide_true]
  rfl

theorem choose_scalar (n : ℕ) (vs : List (Val K)) (rd : ℕ) (pd : List (Option ℤ)) (c : Val K) (h : Heap K)
    (hd : free pd = vs.length) (b : Block)
    (hb : vs.length = 1 ∧ b = filterFun2 ∨ vs.length = 2 ∧ b = filterFun5 ∨ vs.length = 3 ∧ b = filterFun12 ∨
      vs.length = 4 ∧ b = filterFun25) :
    runFun (world filterProg (n + 1)) filterFun [.tup vs, .arr rd pd, c] h = pure (.fn (inside b), h) := by
  rw [runFun]
  pysimp [filterFun, filterBody, look, fglob_len, hd]
  rcases hb with ⟨hv, rfl⟩ | ⟨hv, rfl⟩ | ⟨hv, rfl⟩ | ⟨hv, rfl⟩ <;> rw [hv] <;>
    simp [pysrc, look, pure_run]

theorem call_filter {n : ℕ} {args : List (Val K)} {h : Heap K} {F : FunDef}
    (hF : runFun (world filterProg n) filterFun args h = pure (.fn F, h)) :
    callN filterProg (n + 1) (.over "_filter_cubic") args h = runFun (world filterProg n) F args h := by
  rw [callN_over filter_find, step (choose_first hF)]

theorem scalar_sim (L : LitLaws K) (h3 : (((3 : ℕ) : K) == 0) = false) (h6 : (((6 : ℕ) : K) == 0) = false) (n : ℕ)
    {h : Heap K} {rc rd : ℕ} (hne : rc ≠ rd) {t post : List ℕ} (hp : InShape t post) {A0 S : NdArray K}
    (hc : h[rc]? = some (fill A0 t post S)) {A1 D : NdArray K} {t' : List ℕ} (hp' : InShape t' post)
    (hd : h[rd]? = some (fill A1 t' post D)) {vs : List (Val K)} {grid : List (GridDim K)}
    (hv : List.Forall₂ (AxisVal h) vs grid) (h0 : 0 < grid.length) (h4 : grid.length ≤ 4)
    (hD : D.shape.length = grid.length) (hS : S.shape.length = grid.length) :
    Sim (filterScalar grid D S)
      (callN filterProg (n + 4) (.over "_filter_cubic") [.tup vs, .arr rd (pat grid.length post), .arr rc (pat grid.length post)] h)
      (Done h rc A0 t post S.shape) := by
  have hl := hv.length_eq
  have hfree : free (pat grid.length post) = vs.length := by rw [free_pat, hl]
  match vs, grid, hv with
  | [v0], [g0], .cons a0 .nil =>
    rw [call_filter (choose_scalar _ _ _ _ _ h hfree filterFun2 (by simp))]
    exact inner1 L h3 h6 n hne hp hc hp' hd a0 hD hS
  | [v0, v1], [g0, g1], .cons a0 (.cons a1 .nil) =>
    rw [call_filter (choose_scalar _ _ _ _ _ h hfree filterFun5 (by simp))]
    exact inner2 L h3 h6 n hne hp hc hp' hd a0 a1 hD hS
  | [v0, v1, v2], [g0, g1, g2], .cons a0 (.cons a1 (.cons a2 .nil)) =>
    rw [call_filter (choose_scalar _ _ _ _ _ h hfree filterFun12 (by simp))]
    exact inner3 L h3 h6 n hne hp hc hp' hd a0 a1 a2 hD hS
  | [v0, v1, v2, v3], [g0, g1, g2, g3], .cons a0 (.cons a1 (.cons a2 (.cons a3 .nil))) =>
    rw [call_filter (choose_scalar _ _ _ _ _ h hfree filterFun25 (by simp))]
    exact inner4 L h3 h6 n hne hp hc hp' hd a0 a1 a2 a3 hD hS
  | [], [], _ => simp at h0
  | _ :: _ :: _ :: _ :: _ :: _, g0 :: g1 :: g2 :: g3 :: g4 :: gs, _ => simp at h4

/-! ### Extra dimensions -/

theorem item_last (vs : List (Val K)) (v : Val K) : item (.tup (vs ++ [v])) [.at (-((1 : ℕ) : ℤ))] = pure v := by
  have hw : wrapIndex (vs ++ [v]).length (-((1 : ℕ) : ℤ)) = some vs.length := by simp [wrapIndex]
  simp only [item, hw]
  simp

theorem refine_dots (d : ℕ) (post : List ℕ) (ix : ℕ) :
    refine (pat (d + 1) post) (List.replicate d .full ++ [.at (ix : ℤ)]) = some (pat d (ix :: post)) := by
  induction d with
  | zero =>
    change refine (none :: _) [.at (ix : ℤ)] = _
    rw [refine_at, refine_nil]; rfl
  | succ d ih =>
    rw [show pat (d + 2) post = none :: pat (d + 1) post from rfl, List.replicate_succ, List.cons_append, refine_full, ih]
    rfl

theorem pat_incomplete (d : ℕ) (post : List ℕ) : complete (pat (d + 1) post) = none := rfl

theorem item_dots (r d : ℕ) (post : List ℕ) (ix : ℕ) :
    item (.arr r (pat (d + 2) post) : Val K) [.dots, .at (ix : ℤ)] = pure (.arr r (pat (d + 1) (ix :: post))) := by
  apply item_view
  · rw [free_pat]
    exact refine_dots (d + 1) post ix
  · exact pat_incomplete d _

theorem forall₂_snoc {α β : Type} {R : α → β → Prop} {l : List α} {l' : List β} {a : α} {b : β}
    (h : List.Forall₂ R (l ++ [a]) (l' ++ [b])) : List.Forall₂ R l l' ∧ R a b := by
  induction l generalizing l' with
  | nil =>
    cases l' with
    | nil => exact ⟨.nil, by simpa using h⟩
    | cons c l' => simpa using h.length_eq
  | cons c l ih =>
    cases l' with
    | nil => simpa using h.length_eq
    | cons c' l' =>
      simp only [List.cons_append, List.forall₂_cons] at h ⊢
      exact ⟨⟨h.1, (ih h.2).1⟩, (ih h.2).2⟩

theorem axes_reach {h h' : Heap K} {rc : ℕ} {A : NdArray K} {vs : List (Val K)} {grid : List (GridDim K)}
    (hv : List.Forall₂ (AxisVal h) vs grid) (ho : ∀ v ∈ vs, Other rc v) (hr : Reach h rc A h') :
    List.Forall₂ (AxisVal h') vs grid := by
  induction hv with
  | nil => exact .nil
  | cons h1 _ ih => exact .cons (h1.reach (ho _ (by simp)) hr) (ih fun v hv => ho v (by simp [hv]))

theorem nd_sim (L : LitLaws K) (h3 : (((3 : ℕ) : K) == 0) = false) (h6 : (((6 : ℕ) : K) == 0) = false) (n : ℕ)
    {rc rd : ℕ} (hne : rc ≠ rd) {vs : List (Val K)} {grid : List (GridDim K)} (h0 : 0 < grid.length) (h4 : grid.length ≤ 4)
    (ho : ∀ v ∈ vs, Other rc v) (extra : ℕ) {h : Heap K} {t post : List ℕ} (hp : InShape t post) {A0 S : NdArray K}
    (hc : h[rc]? = some (fill A0 t post S)) {A1 D : NdArray K} {t' : List ℕ} (hp' : InShape t' post)
    (hd : h[rd]? = some (fill A1 t' post D))
    (hv : List.Forall₂ (AxisVal h) vs grid) (hD : D.shape.length = grid.length + extra)
    (hS : S.shape.length = grid.length + extra)
    (hle : List.Forall₂ (· ≤ ·) (S.shape.drop grid.length) (D.shape.drop grid.length)) :
    Sim (filterNd grid extra D S)
      (callN filterProg (n + extra + 4) (.over "_filter_cubic")
        [.tup vs, .arr rd (pat (grid.length + extra) post), .arr rc (pat (grid.length + extra) post)] h)
      (Done h rc A0 t post S.shape) := by
  induction extra generalizing h t post A0 S A1 D t' with
  | zero => exact scalar_sim L h3 h6 n hne hp hc hp' hd hv h0 h4 hD hS
  | succ extra ih =>
    have hl := hv.length_eq
    have hcl : rc < h.length := (List.getElem?_eq_some_iff.mp hc).1
    obtain ⟨k, hk⟩ : ∃ k, grid.length = k + 1 := ⟨grid.length - 1, by omega⟩
    obtain ⟨sS, m, hm⟩ : ∃ s m, S.shape = s ++ [m] := by
      refine ⟨S.shape.dropLast, S.shape.getLast (by intro he; simp [he] at hS), (List.dropLast_append_getLast _).symm⟩
    obtain ⟨sD, p, hq⟩ : ∃ s m, D.shape = s ++ [m] := by
      refine ⟨D.shape.dropLast, D.shape.getLast (by intro he; simp [he] at hD), (List.dropLast_append_getLast _).symm⟩
    have hsS : sS.length = grid.length + extra := by rw [hm] at hS; simp at hS; omega
    have hsD : sD.length = grid.length + extra := by rw [hq] at hD; simp at hD; omega
    obtain ⟨hle1, hmp⟩ : List.Forall₂ (· ≤ ·) (sS.drop grid.length) (sD.drop grid.length) ∧ m ≤ p := by
      rw [hm, hq, List.drop_append_of_le_length (by omega), List.drop_append_of_le_length (by omega)] at hle
      exact forall₂_snoc hle
    rw [show n + (extra + 1) + 4 = (n + extra + 4) + 1 by omega,
      call_filter (choose_extra (n + extra + 3) _ _ _ _ h (by rw [free_pat]; omega)), runFun]
    pysimp [filterFun1, look]
    rw [shape_step hc hS, hm, List.map_append]
    simp only [List.map_cons, List.map_nil]
    pysimp [item_last]
    rw [bind_run, filterNd]
    generalize he : Env.set _ "n_x" _ = env0
    have he0 (s : String) := congrFun he.symm s
    have hlast : S.shape.getLastD 0 = m := by rw [hm]; simp
    have hlastD : D.shape.getLastD 0 = p := by rw [hq]; simp
    rw [hlast, hlastD]
    refine Sim.bind_right (for_sim_nil (names := ["i_x"]) (R := fun S' H => Reach h rc (fill A0 t post S') H ∧ S'.shape = S.shape)
      (by pysimp [look, he0, fglob_range]) (fun _ => rfl) (by pysimp [he0]) ⟨.refl hc, rfl⟩ ?_) ?_
    · intro ix hix S' H env' e ⟨hr, hS'⟩
      have hS'' : S'.shape.dropLast ++ [m] = S'.shape := by rw [hS', hm]; simp
      have hD'' : D.shape.dropLast ++ [p] = D.shape := by rw [hq]; simp
      have hixp : ix < p := by omega
      simp only [not_le.mpr hixp, if_false]
      pysimp [filterLoop0, look, e _, he0, fglob_filter, hk, show k + 1 + (extra + 1) = (k + extra) + 2 by omega, item_dots]
      rw [bind_run, show k + extra + 1 = grid.length + extra by omega]
      refine Sim.bind (ih (t := m :: t) (post := ix :: post) (A0 := fill A0 t post S') (S := S'.sliceLast ix)
        (A1 := fill A1 t' post D) (t' := p :: t') (D := D.sliceLast ix) ⟨hix, hp⟩ ?_ ⟨hixp, hp'⟩ ?_ ?_ ?_ ?_ ?_) ?_
      · rw [fill_same _ _ _ _ _ _ hS'']; exact hr.self hcl
      · rw [fill_same _ _ _ _ _ _ hD'']; exact hr.get hne hd
      · exact axes_reach hv ho hr
      · simp [NdArray.sliceLast, hD]
      · simp [NdArray.sliceLast, hS', hS]
      · simpa [NdArray.sliceLast, hS', hm, hq] using hle1
      · rintro S'' ⟨_, H'⟩ ⟨_, hr', hs'⟩
        have hsh : S''.shape ++ [m] = S'.shape := by rw [hs']; exact hS''
        rw [fill_slice _ _ _ _ _ _ _ hsh] at hr'
        refine Sim.pure ⟨_, rfl, e.set (by simp) _, hr.trans hcl hr', ?_⟩
        simp [NdArray.setLast, hS']
    · rintro S' ⟨_, H⟩ ⟨env, rfl, _, hr, hS'⟩
      exact Sim.pure ⟨rfl, hr, by rw [hS', hm]⟩

/-! ### Whole arrays -/

theorem pat_whole (d : ℕ) : pat d [] = whole d := by simp [pat, whole]

theorem into_sim (L : LitLaws K) (h3 : (((3 : ℕ) : K) == 0) = false) (h6 : (((6 : ℕ) : K) == 0) = false)
    {rc rd : ℕ} (hne : rc ≠ rd) {vs : List (Val K)} {grid : List (GridDim K)} (h0 : 0 < grid.length) (h4 : grid.length ≤ 4)
    (ho : ∀ v ∈ vs, Other rc v) {h : Heap K} {C D : NdArray K} (hc : h[rc]? = some C) (hd : h[rd]? = some D)
    (hv : List.Forall₂ (AxisVal h) vs grid) (hD : grid.length ≤ D.shape.length) (hC : C.shape.length = D.shape.length)
    (hle : List.Forall₂ (· ≤ ·) (C.shape.drop grid.length) (D.shape.drop grid.length)) {n : ℕ}
    (hn : D.shape.length - grid.length + 4 ≤ n) :
    Sim (filterInto grid D C)
      (callN filterProg n (.over "_filter_cubic") [.tup vs, .arr rd (whole D.shape.length), .arr rc (whole D.shape.length)] h)
      (fun C' o => o.1 = .none ∧ Reach h rc C' o.2) := by
  obtain ⟨n, rfl⟩ : ∃ m, n = m + (D.shape.length - grid.length) + 4 := ⟨n - (D.shape.length - grid.length + 4), by omega⟩
  have hs : grid.length + (D.shape.length - grid.length) = D.shape.length := by omega
  rw [filterInto, if_neg (by omega), ← pat_whole]
  have := nd_sim L h3 h6 n hne h0 h4 ho (D.shape.length - grid.length) (t := []) (post := []) trivial (A0 := C) (S := C)
    (by rw [fill_nil]; exact hc) (A1 := D) (D := D) (t' := []) trivial (by rw [fill_nil]; exact hd) hv hs.symm (by omega) hle
  rw [hs] at this
  refine this.mono ?_
  rintro C' o ⟨h1, h2, h3⟩
  rw [fill_nil] at h2
  exact ⟨h1, h2⟩

theorem rest_sim (L : LitLaws K) (h3 : (((3 : ℕ) : K) == 0) = false) (h6 : (((6 : ℕ) : K) == 0) = false)
    {rd : ℕ} {vs : List (Val K)} {grid : List (GridDim K)} (h0 : 0 < grid.length) (h4 : grid.length ≤ 4)
    {h : Heap K} {D : NdArray K} (hd : h[rd]? = some D)
    (hv : List.Forall₂ (AxisVal h) vs grid) (hD : grid.length ≤ D.shape.length) (sh : List ℕ) (hC : sh.length = D.shape.length)
    (hle : List.Forall₂ (· ≤ ·) (sh.drop grid.length) (D.shape.drop grid.length)) {n : ℕ}
    (hn : D.shape.length - grid.length + 4 ≤ n) :
    Sim (filterInto grid D (.zeros sh)) ((callN filterProg n (.over "_filter_cubic") [.tup vs, .arr rd (whole D.shape.length),
        .arr h.length (whole D.shape.length)] >>= fun _ => (pure (.arr h.length (whole D.shape.length)) : M K (Val K))) (h ++ [.zeros sh]))
      (fun C' o => o.1 = Val.arr h.length (whole D.shape.length) ∧ ∃ t, o.2 = h ++ C' :: t) := by
  have hrd : rd < h.length := (List.getElem?_eq_some_iff.mp hd).1
  have hother : ∀ v ∈ vs, Other h.length v := by
    intro v hv'
    obtain ⟨i, hi, rfl⟩ := List.mem_iff_getElem.mp hv'
    have := List.Forall₂.get hv hi (by rw [← hv.length_eq]; exact hi)
    rintro r' p he rfl
    simp only [List.get_eq_getElem] at this
    rw [he] at this
    rcases hg : grid[i]'(by rw [← hv.length_eq]; exact hi) with ⟨a, b, m⟩ | gc
    · rw [hg] at this; simp [AxisVal] at this
    · rw [hg] at this
      obtain ⟨r, hr, A, hA, _⟩ := this
      have := (List.getElem?_eq_some_iff.mp hA).1
      simp at hr; omega
  have happ : ∀ {vs : List (Val K)} {grid : List (GridDim K)}, List.Forall₂ (AxisVal h) vs grid →
      List.Forall₂ (AxisVal (h ++ [NdArray.zeros sh])) vs grid := by
    intro vs grid hv
    refine hv.imp ?_
    rintro v (⟨a, b, m⟩ | gc) hv
    · exact hv
    · obtain ⟨r, hr, A, hA, hV⟩ := hv
      exact ⟨r, hr, A, by rw [List.getElem?_append_left (List.getElem?_eq_some_iff.mp hA).1, hA], hV⟩
  rw [bind_run]
  refine Sim.bind_right (into_sim L h3 h6 (by omega) h0 h4 hother (h := h ++ [.zeros sh]) (C := .zeros sh) (by simp)
    (by rw [List.getElem?_append_left hrd, hd]) (happ hv) hD hC hle hn) ?_
  rintro C' ⟨_, H⟩ ⟨_, t, rfl⟩
  refine Sim.pure ⟨rfl, t, ?_⟩
  simp

/-- A function inside the allocating `__filter_cubic`. -/
abbrev inside2 (b : Block) : FunDef := ⟨"___filter_cubic", [("grid", none), ("D", none)], b⟩

theorem choose_alloc (n : ℕ) (vs : List (Val K)) (rd : ℕ) (pd : List (Option ℤ)) (h : Heap K) (b : Block)
    (hb : free pd = vs.length ∧ (vs.length = 1 ∧ b = filterAllocFun0 ∨ vs.length = 2 ∧ b = filterAllocFun1 ∨
        vs.length = 3 ∧ b = filterAllocFun2 ∨ vs.length = 4 ∧ b = filterAllocFun3) ∨
      free pd = vs.length + 1 ∧ (vs.length = 1 ∧ b = filterAllocFun4 ∨ vs.length = 2 ∧ b = filterAllocFun5 ∨
        vs.length = 3 ∧ b = filterAllocFun6 ∨ vs.length = 4 ∧ b = filterAllocFun7)) :
    runFun (world filterProg (n + 1)) filterAllocFun [.tup vs, .arr rd pd] h = pure (.fn (inside2 b), h) := by
  rw [runFun]
  pysimp [filterAllocFun, filterAllocBody, look, fglob_len]
  rcases hb with ⟨hd, hb⟩ | ⟨hd, hb⟩ <;> rcases hb with ⟨hv, rfl⟩ | ⟨hv, rfl⟩ | ⟨hv, rfl⟩ | ⟨hv, rfl⟩ <;> rw [hd, hv] <;>
    simp [pysrc, look, pure_run, hd, hv]

theorem call_alloc {n : ℕ} {vs : List (Val K)} {rd : ℕ} {pd : List (Option ℤ)} {h : Heap K} {b : Block}
    (hF : runFun (world filterProg n) filterAllocFun [.tup vs, .arr rd pd] h = pure (.fn (inside2 b), h)) :
    callN filterProg (n + 1) (.over "_filter_cubic") [.tup vs, .arr rd pd] h =
      runFun (world filterProg n) (inside2 b) [.tup vs, .arr rd pd] h := by
  have : runFun (world filterProg n) filterFun [.tup vs, .arr rd pd] h = throw .typeErr := rfl
  rw [callN_over filter_find, step ((choose_skip this).trans (choose_first hF))]

theorem sizes_ints (ns : List ℕ) : sizes (ns.map fun n : ℕ => (.int (n : ℤ) : Val K)) = pure ns := by
  induction ns with
  | nil => rfl
  | cons n ns ih => simp [sizes, ih, Except.map]

theorem zerosN_step {α : Type} (ns : List ℕ) (k : Val K → M K α) (h : Heap K) :
    (builtin .zeros [(.tup (ns.map fun n : ℕ => .int (n : ℤ)) : Val K)] >>= k) h =
      k (.arr h.length (whole ns.length)) (h ++ [.zeros ns]) := by
  rw [step (a := .arr h.length (whole ns.length)) (h' := h ++ [.zeros ns])]
  simp only [builtin, sizes_ints]
  rfl

theorem zeros1_step {α : Type} (n : ℕ) (k : Val K → M K α) (h : Heap K) :
    (builtin .zeros [(.int (n : ℤ) : Val K)] >>= k) h = k (.arr h.length (whole 1)) (h ++ [.zeros [n]]) :=
  step (zeros1_run n h)

theorem item_tup4 (s t u v w : Val K) (vs : List (Val K)) :
    item (.tup (s :: t :: u :: v :: w :: vs)) [.at ((4 : ℕ) : ℤ)] = pure w := item_tup_of rfl rfl

/-- The size of the array that the allocating `_filter_cubic` makes. -/
theorem shape_whole {α : Type} {r : ℕ} {D : NdArray K} {h : Heap K} (hr : h[r]? = some D) (k : Val K → M K α) :
    (getAttr (.arr r (whole D.shape.length) : Val K) "shape" >>= k) h =
      k (.tup (D.shape.map fun (n : ℕ) => .int (n : ℤ))) h := by
  rw [← pat_whole]
  exact shape_step (A := D) (t := []) (post := []) (by rw [fill_nil]; exact hr) rfl k

section
variable (L : LitLaws K) (h3 : (((3 : ℕ) : K) == 0) = false) (h6 : (((6 : ℕ) : K) == 0) = false)
  {rd : ℕ} {vs : List (Val K)} {grid : List (GridDim K)} {h : Heap K} {D : NdArray K} (hd : h[rd]? = some D)
  (hv : List.Forall₂ (AxisVal h) vs grid) {n : ℕ}
include L h3 h6 hd hv

theorem alloc0 (hl : grid.length = 1) {a : ℕ} (hD : D.shape = [a]) (hn : 4 ≤ n) :
    Sim (filterInto grid D (.zeros [a + 2]))
      (runFun (world filterProg n) (inside2 filterAllocFun0) [.tup vs, .arr rd (whole 1)] h)
      (fun C' o => o.1 = .arr h.length (whole 1) ∧ ∃ t, o.2 = h ++ C' :: t) := by
  obtain ⟨m, rfl⟩ : ∃ m, n = m + 1 := ⟨n - 1, by omega⟩
  have hs {α : Type} (k : Val K → M K α) : (getAttr (.arr rd (whole 1) : Val K) "shape" >>= k) h =
      k (.tup [.int (a : ℤ)]) h := by
    have := shape_whole hd k; rw [hD] at this; exact this
  rw [runFun]
  pysimp [filterAllocFun0, look, fglob_np]
  rw [hs]
  pysimp
  rw [show ((a : ℤ) + ((2 : ℕ) : ℤ)) = ((a + 2 : ℕ) : ℤ) from rfl, zeros1_step]
  pysimp [fglob_filter]
  have := rest_sim L h3 h6 (by omega) (by omega) hd hv (by simp [hl, hD]) [a + 2] (by simp [hD]) (by simp [hl, hD])
    (n := m + 1) (by simp [hl, hD]; omega)
  rw [hD] at this
  exact this

theorem alloc1 (hl : grid.length = 2) {a b : ℕ} (hD : D.shape = [a, b]) (hn : 4 ≤ n) :
    Sim (filterInto grid D (.zeros [a + 2, b + 2]))
      (runFun (world filterProg n) (inside2 filterAllocFun1) [.tup vs, .arr rd (whole 2)] h)
      (fun C' o => o.1 = .arr h.length (whole 2) ∧ ∃ t, o.2 = h ++ C' :: t) := by
  obtain ⟨m, rfl⟩ : ∃ m, n = m + 1 := ⟨n - 1, by omega⟩
  have hs {α : Type} (k : Val K → M K α) : (getAttr (.arr rd (whole 2) : Val K) "shape" >>= k) h =
      k (.tup [.int (a : ℤ), .int (b : ℤ)]) h := by
    have := shape_whole hd k; rw [hD] at this; exact this
  rw [runFun]
  pysimp [filterAllocFun1, look, fglob_np]
  rw [hs]
  pysimp
  rw [hs]
  pysimp
  rw [show ∀ k, (builtin .zeros [.tup [.int ((a : ℤ) + ((2 : ℕ) : ℤ)), .int ((b : ℤ) + ((2 : ℕ) : ℤ))]] >>= k) h = _ from fun k => zerosN_step [a + 2, b + 2] k h]
  pysimp [fglob_filter]
  have := rest_sim L h3 h6 (by omega) (by omega) hd hv (by simp [hl, hD]) [a + 2, b + 2] (by simp [hD]) (by simp [hl, hD])
    (n := m + 1) (by simp [hl, hD]; omega)
  rw [hD] at this
  exact this

theorem alloc2 (hl : grid.length = 3) {a b c : ℕ} (hD : D.shape = [a, b, c]) (hn : 4 ≤ n) :
    Sim (filterInto grid D (.zeros [a + 2, b + 2, c + 2]))
      (runFun (world filterProg n) (inside2 filterAllocFun2) [.tup vs, .arr rd (whole 3)] h)
      (fun C' o => o.1 = .arr h.length (whole 3) ∧ ∃ t, o.2 = h ++ C' :: t) := by
  obtain ⟨m, rfl⟩ : ∃ m, n = m + 1 := ⟨n - 1, by omega⟩
  have hs {α : Type} (k : Val K → M K α) : (getAttr (.arr rd (whole 3) : Val K) "shape" >>= k) h =
      k (.tup [.int (a : ℤ), .int (b : ℤ), .int (c : ℤ)]) h := by
    have := shape_whole hd k; rw [hD] at this; exact this
  rw [runFun]
  pysimp [filterAllocFun2, look, fglob_np]
  rw [hs]
  pysimp
  rw [hs]
  pysimp
  rw [hs]
  pysimp
  rw [show ∀ k, (builtin .zeros [.tup [.int ((a : ℤ) + ((2 : ℕ) : ℤ)), .int ((b : ℤ) + ((2 : ℕ) : ℤ)), .int ((c : ℤ) + ((2 : ℕ) : ℤ))]] >>= k) h = _ from fun k => zerosN_step [a + 2, b + 2, c + 2] k h]
  pysimp [fglob_filter]
  have := rest_sim L h3 h6 (by omega) (by omega) hd hv (by simp [hl, hD]) [a + 2, b + 2, c + 2] (by simp [hD]) (by simp [hl, hD])
    (n := m + 1) (by simp [hl, hD]; omega)
  rw [hD] at this
  exact this

theorem alloc3 (hl : grid.length = 4) {a b c e : ℕ} (hD : D.shape = [a, b, c, e]) (hn : 4 ≤ n) :
    Sim (filterInto grid D (.zeros [a + 2, b + 2, c + 2, e + 2]))
      (runFun (world filterProg n) (inside2 filterAllocFun3) [.tup vs, .arr rd (whole 4)] h)
      (fun C' o => o.1 = .arr h.length (whole 4) ∧ ∃ t, o.2 = h ++ C' :: t) := by
  obtain ⟨m, rfl⟩ : ∃ m, n = m + 1 := ⟨n - 1, by omega⟩
  have hs {α : Type} (k : Val K → M K α) : (getAttr (.arr rd (whole 4) : Val K) "shape" >>= k) h =
      k (.tup [.int (a : ℤ), .int (b : ℤ), .int (c : ℤ), .int (e : ℤ)]) h := by
    have := shape_whole hd k; rw [hD] at this; exact this
  rw [runFun]
  pysimp [filterAllocFun3, look, fglob_np]
  rw [hs]
  pysimp
  rw [hs]
  pysimp
  rw [hs]
  pysimp
  rw [hs]
  pysimp
  rw [show ∀ k, (builtin .zeros [.tup [.int ((a : ℤ) + ((2 : ℕ) : ℤ)), .int ((b : ℤ) + ((2 : ℕ) : ℤ)), .int ((c : ℤ) + ((2 : ℕ) : ℤ)), .int ((e : ℤ) + ((2 : ℕ) : ℤ))]] >>= k) h = _ from fun k => zerosN_step [a + 2, b + 2, c + 2, e + 2] k h]
  pysimp [fglob_filter]
  have := rest_sim L h3 h6 (by omega) (by omega) hd hv (by simp [hl, hD]) [a + 2, b + 2, c + 2, e + 2] (by simp [hD]) (by simp [hl, hD])
    (n := m + 1) (by simp [hl, hD]; omega)
  rw [hD] at this
  exact this

theorem alloc4 (hl : grid.length = 1) {a b : ℕ} (hD : D.shape = [a, b]) (hn : 5 ≤ n) :
    Sim (filterInto grid D (.zeros [a + 2, b]))
      (runFun (world filterProg n) (inside2 filterAllocFun4) [.tup vs, .arr rd (whole 2)] h)
      (fun C' o => o.1 = .arr h.length (whole 2) ∧ ∃ t, o.2 = h ++ C' :: t) := by
  obtain ⟨m, rfl⟩ : ∃ m, n = m + 1 := ⟨n - 1, by omega⟩
  have hs {α : Type} (k : Val K → M K α) : (getAttr (.arr rd (whole 2) : Val K) "shape" >>= k) h =
      k (.tup [.int (a : ℤ), .int (b : ℤ)]) h := by
    have := shape_whole hd k; rw [hD] at this; exact this
  rw [runFun]
  pysimp [filterAllocFun4, look, fglob_np]
  rw [hs]
  pysimp
  rw [hs]
  pysimp
  rw [show ∀ k, (builtin .zeros [.tup [.int ((a : ℤ) + ((2 : ℕ) : ℤ)), .int (b : ℤ)]] >>= k) h = _ from fun k => zerosN_step [a + 2, b] k h]
  pysimp [fglob_filter]
  have := rest_sim L h3 h6 (by omega) (by omega) hd hv (by simp [hl, hD]) [a + 2, b] (by simp [hD]) (by simp [hl, hD])
    (n := m + 1) (by simp [hl, hD]; omega)
  rw [hD] at this
  exact this

theorem alloc5 (hl : grid.length = 2) {a b c : ℕ} (hD : D.shape = [a, b, c]) (hn : 5 ≤ n) :
    Sim (filterInto grid D (.zeros [a + 2, b + 2, c]))
      (runFun (world filterProg n) (inside2 filterAllocFun5) [.tup vs, .arr rd (whole 3)] h)
      (fun C' o => o.1 = .arr h.length (whole 3) ∧ ∃ t, o.2 = h ++ C' :: t) := by
  obtain ⟨m, rfl⟩ : ∃ m, n = m + 1 := ⟨n - 1, by omega⟩
  have hs {α : Type} (k : Val K → M K α) : (getAttr (.arr rd (whole 3) : Val K) "shape" >>= k) h =
      k (.tup [.int (a : ℤ), .int (b : ℤ), .int (c : ℤ)]) h := by
    have := shape_whole hd k; rw [hD] at this; exact this
  rw [runFun]
  pysimp [filterAllocFun5, look, fglob_np]
  rw [hs]
  pysimp
  rw [hs]
  pysimp
  rw [hs]
  pysimp
  rw [show ∀ k, (builtin .zeros [.tup [.int ((a : ℤ) + ((2 : ℕ) : ℤ)), .int ((b : ℤ) + ((2 : ℕ) : ℤ)), .int (c : ℤ)]] >>= k) h = _ from fun k => zerosN_step [a + 2, b + 2, c] k h]
  pysimp [fglob_filter]
  have := rest_sim L h3 h6 (by omega) (by omega) hd hv (by simp [hl, hD]) [a + 2, b + 2, c] (by simp [hD]) (by simp [hl, hD])
    (n := m + 1) (by simp [hl, hD]; omega)
  rw [hD] at this
  exact this

theorem alloc6 (hl : grid.length = 3) {a b c e : ℕ} (hD : D.shape = [a, b, c, e]) (hn : 5 ≤ n) :
    Sim (filterInto grid D (.zeros [a + 2, b + 2, c + 2, e]))
      (runFun (world filterProg n) (inside2 filterAllocFun6) [.tup vs, .arr rd (whole 4)] h)
      (fun C' o => o.1 = .arr h.length (whole 4) ∧ ∃ t, o.2 = h ++ C' :: t) := by
  obtain ⟨m, rfl⟩ : ∃ m, n = m + 1 := ⟨n - 1, by omega⟩
  have hs {α : Type} (k : Val K → M K α) : (getAttr (.arr rd (whole 4) : Val K) "shape" >>= k) h =
      k (.tup [.int (a : ℤ), .int (b : ℤ), .int (c : ℤ), .int (e : ℤ)]) h := by
    have := shape_whole hd k; rw [hD] at this; exact this
  rw [runFun]
  pysimp [filterAllocFun6, look, fglob_np]
  rw [hs]
  pysimp
  rw [hs]
  pysimp
  rw [hs]
  pysimp
  rw [hs]
  pysimp
  rw [show ∀ k, (builtin .zeros [.tup [.int ((a : ℤ) + ((2 : ℕ) : ℤ)), .int ((b : ℤ) + ((2 : ℕ) : ℤ)), .int ((c : ℤ) + ((2 : ℕ) : ℤ)), .int (e : ℤ)]] >>= k) h = _ from fun k => zerosN_step [a + 2, b + 2, c + 2, e] k h]
  pysimp [fglob_filter]
  have := rest_sim L h3 h6 (by omega) (by omega) hd hv (by simp [hl, hD]) [a + 2, b + 2, c + 2, e] (by simp [hD]) (by simp [hl, hD])
    (n := m + 1) (by simp [hl, hD]; omega)
  rw [hD] at this
  exact this

theorem alloc7 (hl : grid.length = 4) {a b c e f : ℕ} (hD : D.shape = [a, b, c, e, f]) (hn : 5 ≤ n) :
    Sim (filterInto grid D (.zeros [a + 2, b + 2, c + 2, e + 2, f]))
      (runFun (world filterProg n) (inside2 filterAllocFun7) [.tup vs, .arr rd (whole 5)] h)
      (fun C' o => o.1 = .arr h.length (whole 5) ∧ ∃ t, o.2 = h ++ C' :: t) := by
  obtain ⟨m, rfl⟩ : ∃ m, n = m + 1 := ⟨n - 1, by omega⟩
  have hs {α : Type} (k : Val K → M K α) : (getAttr (.arr rd (whole 5) : Val K) "shape" >>= k) h =
      k (.tup [.int (a : ℤ), .int (b : ℤ), .int (c : ℤ), .int (e : ℤ), .int (f : ℤ)]) h := by
    have := shape_whole hd k; rw [hD] at this; exact this
  rw [runFun]
  pysimp [filterAllocFun7, look, fglob_np]
  rw [hs]
  pysimp
  rw [hs]
  pysimp
  rw [hs]
  pysimp
  rw [hs]
  pysimp
  rw [hs]
  pysimp [item_tup4]
  rw [show ∀ k, (builtin .zeros [.tup [.int ((a : ℤ) + ((2 : ℕ) : ℤ)), .int ((b : ℤ) + ((2 : ℕ) : ℤ)), .int ((c : ℤ) + ((2 : ℕ) : ℤ)), .int ((e : ℤ) + ((2 : ℕ) : ℤ)), .int (f : ℤ)]] >>= k) h = _ from fun k => zerosN_step [a + 2, b + 2, c + 2, e + 2, f] k h]
  pysimp [fglob_filter]
  have := rest_sim L h3 h6 (by omega) (by omega) hd hv (by simp [hl, hD]) [a + 2, b + 2, c + 2, e + 2, f] (by simp [hD]) (by simp [hl, hD])
    (n := m + 1) (by simp [hl, hD]; omega)
  rw [hD] at this
  exact this

end

theorem alloc_sim (L : LitLaws K) (h3 : (((3 : ℕ) : K) == 0) = false) (h6 : (((6 : ℕ) : K) == 0) = false)
    {rd : ℕ} {vs : List (Val K)} {grid : List (GridDim K)} {h : Heap K} {D : NdArray K} (hd : h[rd]? = some D)
    (hv : List.Forall₂ (AxisVal h) vs grid) (h0 : 0 < grid.length) (h4 : grid.length ≤ 4)
    (hD : D.shape.length = grid.length ∨ D.shape.length = grid.length + 1) {n : ℕ} (hn : 6 ≤ n) :
    Sim (filterCubic grid D) (callN filterProg n (.over "_filter_cubic") [.tup vs, .arr rd (whole D.shape.length)] h)
      (fun C' o => o.1 = .arr h.length (whole D.shape.length) ∧ ∃ t, o.2 = h ++ C' :: t) := by
  obtain ⟨n, rfl⟩ : ∃ m, n = m + 2 := ⟨n - 2, by omega⟩
  have hl := hv.length_eq
  have hfree (k : ℕ) : free (whole k) = k := by rw [← pat_whole, free_pat]
  have hg : grid.length = 1 ∨ grid.length = 2 ∨ grid.length = 3 ∨ grid.length = 4 := by omega
  simp only [filterCubic]
  rw [if_neg (by omega)]
  rcases hD with hD | hD
  · rw [if_pos hD]
    rcases hg with hg | hg | hg | hg <;> rw [hg] at hD
    · obtain ⟨a, hs⟩ := List.length_eq_one_iff.mp hD
      rw [call_alloc (choose_alloc n vs rd _ h filterAllocFun0 (by left; simp [hfree, hD, hl, hg])), hs]
      exact alloc0 L h3 h6 hd hv hg hs (by omega)
    · obtain ⟨a, b, hs⟩ := List.length_eq_two.mp hD
      rw [call_alloc (choose_alloc n vs rd _ h filterAllocFun1 (by left; simp [hfree, hD, hl, hg])), hs]
      exact alloc1 L h3 h6 hd hv hg hs (by omega)
    · obtain ⟨a, b, c, hs⟩ := List.length_eq_three.mp hD
      rw [call_alloc (choose_alloc n vs rd _ h filterAllocFun2 (by left; simp [hfree, hD, hl, hg])), hs]
      exact alloc2 L h3 h6 hd hv hg hs (by omega)
    · obtain ⟨a, b, c, e, hs⟩ : ∃ a b c e, D.shape = [a, b, c, e] := by
        match D.shape, hD with
        | [a, b, c, e], _ => exact ⟨_, _, _, _, rfl⟩
      rw [call_alloc (choose_alloc n vs rd _ h filterAllocFun3 (by left; simp [hfree, hD, hl, hg])), hs]
      exact alloc3 L h3 h6 hd hv hg hs (by omega)
  · rw [if_neg (by omega), if_pos hD]
    rcases hg with hg | hg | hg | hg <;> rw [hg] at hD
    · obtain ⟨a, b, hs⟩ := List.length_eq_two.mp hD
      rw [call_alloc (choose_alloc n vs rd _ h filterAllocFun4 (by right; simp [hfree, hD, hl, hg])), hs, hg]
      exact alloc4 L h3 h6 hd hv hg hs (by omega)
    · obtain ⟨a, b, c, hs⟩ := List.length_eq_three.mp hD
      rw [call_alloc (choose_alloc n vs rd _ h filterAllocFun5 (by right; simp [hfree, hD, hl, hg])), hs, hg]
      exact alloc5 L h3 h6 hd hv hg hs (by omega)
    · obtain ⟨a, b, c, e, hs⟩ : ∃ a b c e, D.shape = [a, b, c, e] := by
        match D.shape, hD with
        | [a, b, c, e], _ => exact ⟨_, _, _, _, rfl⟩
      rw [call_alloc (choose_alloc n vs rd _ h filterAllocFun6 (by right; simp [hfree, hD, hl, hg])), hs, hg]
      exact alloc6 L h3 h6 hd hv hg hs (by omega)
    · obtain ⟨a, b, c, e, f, hs⟩ : ∃ a b c e f, D.shape = [a, b, c, e, f] := by
        match D.shape, hD with
        | [a, b, c, e, f], _ => exact ⟨_, _, _, _, _, rfl⟩
      rw [call_alloc (choose_alloc n vs rd _ h filterAllocFun7 (by right; simp [hfree, hD, hl, hg])), hs, hg]
      exact alloc7 L h3 h6 hd hv hg hs (by omega)

/-! ### Calls without an implementation -/

theorem choose_pass {run : FunDef → List (Val K) → M K (Val K)} {args : List (Val K)} {G : FunDef} {Gs : List FunDef}
    {h h' : Heap K} (hG : run G args h = pure (.none, h')) : choose run args (G :: Gs) h = choose run args Gs h := by
  simp only [choose, hG]; rfl

theorem alloc_none (n : ℕ) (vs : List (Val K)) (rd : ℕ) (pd : List (Option ℤ)) (h : Heap K)
    (h1 : free pd ≠ vs.length) (h2 : free pd ≠ vs.length + 1) :
    runFun (world filterProg (n + 1)) filterAllocFun [.tup vs, .arr rd pd] h = pure (.none, h) := by
  have h1' : ((free pd : ℕ) : ℤ) ≠ (vs.length : ℤ) := by exact_mod_cast h1
  have h2' : ((free pd : ℕ) : ℤ) ≠ (vs.length : ℤ) + ((1 : ℕ) : ℤ) := by exact_mod_cast h2
  rw [runFun]
  pysimp [filterAllocFun, filterAllocBody, look, fglob_len, h1', h2', decide_false]
  rfl

theorem alloc_unbound (n : ℕ) (vs : List (Val K)) (rd : ℕ) (pd : List (Option ℤ)) (h : Heap K)
    (hv : vs.length = 0 ∨ 4 < vs.length) (hd : free pd = vs.length ∨ free pd = vs.length + 1) :
    ∃ e, runFun (world filterProg (n + 1)) filterAllocFun [.tup vs, .arr rd pd] h = throw e := by
  have hg : (globalOf filterProg "___filter_cubic" : M K _) = raise (.name "___filter_cubic") := by
    simp [globalOf, find, filterProg, pyGlob, pyName]
  have hv1 : ((vs.length : ℕ) : ℤ) ≠ ((1 : ℕ) : ℤ) := by norm_cast; omega
  have hv2 : ((vs.length : ℕ) : ℤ) ≠ ((2 : ℕ) : ℤ) := by norm_cast; omega
  have hv3 : ((vs.length : ℕ) : ℤ) ≠ ((3 : ℕ) : ℤ) := by norm_cast; omega
  have hv4 : ((vs.length : ℕ) : ℤ) ≠ ((4 : ℕ) : ℤ) := by norm_cast; omega
  refine ⟨.name "___filter_cubic", ?_⟩
  rw [runFun]
  rcases hd with hd | hd
  · pysimp [filterAllocFun, filterAllocBody, look, fglob_len, hd, decide_true, hv1, hv2, hv3, hv4, decide_false, Bool.false_eq_true, hg]
    rfl
  · have hne : ((vs.length + 1 : ℕ) : ℤ) ≠ (vs.length : ℤ) := by norm_cast; omega
    have he : (((vs.length + 1 : ℕ) : ℤ) = (vs.length : ℤ) + ((1 : ℕ) : ℤ)) = True := by simp
    pysimp [filterAllocFun, filterAllocBody, look, fglob_len, hd, hne, he, decide_true, hv1, hv2, hv3, hv4, decide_false, Bool.false_eq_true, hg]
    rfl

theorem alloc_typing {n : ℕ} (hn : 2 ≤ n) (vs : List (Val K)) (rd : ℕ) (pd : List (Option ℤ)) (h : Heap K)
    (hd : (vs.length = 0 ∨ 4 < vs.length) ∨ free pd ≠ vs.length ∧ free pd ≠ vs.length + 1) :
    callN filterProg n (.over "_filter_cubic") [.tup vs, .arr rd pd] h = throw .typing := by
  obtain ⟨n, rfl⟩ : ∃ m, n = m + 2 := ⟨n - 2, by omega⟩
  have h1 : runFun (world filterProg (n + 1)) filterFun [.tup vs, .arr rd pd] h = throw .typeErr := rfl
  rw [callN_over filter_find, bind_run, choose_skip h1]
  by_cases hp : free pd ≠ vs.length ∧ free pd ≠ vs.length + 1
  · rw [choose_pass (alloc_none n vs rd pd h hp.1 hp.2)]; rfl
  · obtain ⟨e, he⟩ := alloc_unbound n vs rd pd h (by tauto) (by tauto)
    rw [choose_skip he]; rfl

end Interp.Spec.PySrc
