import Verif.Spec.PyLang
import Mathlib.Order.Basic
import Mathlib.Tactic.NormNum

/-!
# Round trip of the expression parser
-/

namespace Interp.PyParse
open Interp.Spec.PyLang

/-- The result for every large enough bound. -/
def Ev {α : Type} (f : ℕ → Option α) (r : α) : Prop := ∃ N, ∀ n ≥ N, f n = some r

theorem Ev.unique {α : Type} {f : ℕ → Option α} {r r' : α} (h : Ev f r) (h' : Ev f r') : r = r' := by
  obtain ⟨N, h⟩ := h
  obtain ⟨N', h'⟩ := h'
  have := (h (max N N') (le_max_left _ _)).symm.trans (h' _ (le_max_right _ _))
  exact Option.some.inj this

theorem Ev.succ {α : Type} {f g : ℕ → Option α} {r : α} (h : ∀ n, f (n + 1) = g n) (hg : Ev g r) : Ev f r := by
  obtain ⟨N, hg⟩ := hg
  refine ⟨N + 1, fun n hn => ?_⟩
  obtain ⟨m, rfl⟩ : ∃ m, n = m + 1 := ⟨n - 1, by omega⟩
  rw [h, hg m (by omega)]

theorem Ev.pure {α : Type} (r : α) : Ev (fun _ => some r) r := ⟨0, fun _ _ => rfl⟩

theorem Ev.bind {α β : Type} {f : ℕ → Option α} {a : α} {g : ℕ → α → Option β} {r : β}
    (h : Ev f a) (hg : Ev (fun n => g n a) r) : Ev (fun n => (f n).bind (g n)) r := by
  obtain ⟨N, h⟩ := h
  obtain ⟨N', h'⟩ := hg
  refine ⟨max N N', fun n hn => ?_⟩
  simp only []
  rw [h n (le_of_max_le_left hn)]
  exact h' n (le_of_max_le_right hn)

theorem Ev.map {α β : Type} {f : ℕ → Option α} {a : α} (g : α → β)
    (h : Ev f a) : Ev (fun n => (f n).map g) (g a) := by
  obtain ⟨N, h⟩ := h
  exact ⟨N, fun n hn => by simp only []; rw [h n hn]; rfl⟩

theorem Ev.congr {α : Type} {f g : ℕ → Option α} {r : α} (h : ∀ n, f n = g n) (hg : Ev g r) : Ev f r := by
  obtain ⟨N, hg⟩ := hg
  exact ⟨N, fun n hn => (h n).trans (hg n hn)⟩

/-- Tokens of a tree. -/
def toks : PExpr → List Tok
  | .name s => [.name s]
  | .int n => [.int n]
  | .float n => [.float n]
  | .str s => [.str s]
  | .paren e => .op .lpar :: (toks e ++ [.op .rpar])
  | .tuple es t => .op .lpar :: (toks es ++ ((if t then [.op .comma] else []) ++ [.op .rpar]))
  | .call f es => toks f ++ .op .lpar :: (toks es ++ [.op .rpar])
  | .index e es => toks e ++ .op .lbrack :: (toks es ++ [.op .rbrack])
  | .attr e s => toks e ++ [.op .dot, .name s]
  | .full => [.op .colon]
  | .neg e => .op .minus :: toks e
  | .bin o a b => toks a ++ .op o :: toks b
  | .nil => []
  | .cons e .nil => toks e
  | .cons e es => toks e ++ .op .comma :: toks es

/-- How tightly a tree holds together. -/
def level : PExpr → ℕ
  | .bin o _ _ => (opLevel o).getD 0
  | .neg _ => 4
  | _ => 5

inductive Sort' where
  | expr | args | subs

/-- Trees whose tokens can be read back. -/
def wf : Sort' → PExpr → Prop
  | .expr, .name _ | .expr, .int _ | .expr, .float _ | .expr, .str _ => True
  | .expr, .paren e => wf .expr e
  | .expr, .tuple es t => wf .args es ∧ (es = .nil → t = false) ∧ (t = false → ∀ e, es ≠ .cons e .nil)
  | .expr, .call f es => wf .expr f ∧ level f = 5 ∧ wf .args es
  | .expr, .index e es => wf .expr e ∧ level e = 5 ∧ wf .subs es ∧ es ≠ .nil
  | .expr, .attr e _ => wf .expr e ∧ level e = 5
  | .expr, .neg e => wf .expr e ∧ 4 ≤ level e
  | .expr, .bin o a b => wf .expr a ∧ wf .expr b ∧ ∃ l, opLevel o = some l ∧ l ≤ level a ∧ l < level b
  | .args, .nil => True
  | .args, .cons e es => wf .expr e ∧ wf .args es
  | .subs, .nil => True
  | .subs, .cons e es => (e = .full ∨ wf .expr e) ∧ wf .subs es
  | _, _ => False

/-- The next token does not continue an expression at level `l` or tighter. -/
def Stops (l : ℕ) : List Tok → Prop
  | .op o :: _ => o ≠ .lpar ∧ o ≠ .lbrack ∧ o ≠ .dot ∧ ∀ l', opLevel o = some l' → l' < l
  | _ => True

theorem Stops.mono {l l' : ℕ} (h : l ≤ l') {ts : List Tok} (hs : Stops l ts) : Stops l' ts := by
  unfold Stops at *
  split at hs
  · obtain ⟨h1, h2, h3, h4⟩ := hs
    exact ⟨h1, h2, h3, fun k hk => lt_of_lt_of_le (h4 k hk) h⟩
  · trivial

theorem opLevel_lt {o : Op} {l : ℕ} (h : opLevel o = some l) : l < 4 := by
  cases o <;> simp [opLevel] at h <;> omega

theorem stops_op {o : Op} {l l' : ℕ} (h : opLevel o = some l) (hl : l < l') (ts : List Tok) : Stops l' (.op o :: ts) := by
  refine ⟨?_, ?_, ?_, ?_⟩
  · rintro rfl; simp [opLevel] at h
  · rintro rfl; simp [opLevel] at h
  · rintro rfl; simp [opLevel] at h
  · intro k hk
    rw [h] at hk
    obtain rfl := Option.some.inj hk
    exact hl

/-- The loop ends. -/
theorem loop_stops {l : ℕ} (a : PExpr) {ts : List Tok} (h : Stops l ts) : Ev (fun n => pLoop n l a ts) (a, ts) := by
  refine Ev.succ (g := fun _ => some (a, ts)) (fun n => ?_) (Ev.pure _)
  match ts, h with
  | [], _ => rfl
  | .op o :: r, h =>
    have : opLevel o ≠ some l := fun e => absurd (h.2.2.2 l e) (by simp)
    simp only [pLoop, if_neg this]
  | .name _ :: _, _ => rfl
  | .int _ :: _, _ => rfl
  | .float _ :: _, _ => rfl
  | .str _ :: _, _ => rfl

theorem post_stops {l : ℕ} (a : PExpr) {ts : List Tok} (h : Stops l ts) : Ev (fun n => pPost n a ts) (a, ts) := by
  refine Ev.succ (g := fun _ => some (a, ts)) (fun n => ?_) (Ev.pure _)
  match ts, h with
  | [], _ => rfl
  | .op o :: r, h =>
    obtain ⟨h1, h2, h3, _⟩ := h
    cases o <;> first | rfl | exact absurd rfl h1 | exact absurd rfl h2 | exact absurd rfl h3
  | .name _ :: _, _ => rfl
  | .int _ :: _, _ => rfl
  | .float _ :: _, _ => rfl
  | .str _ :: _, _ => rfl

/-- Reading `e` at level `l` leads to the loop of level `l` with `e` as first operand. -/
def ReadsAt (l : ℕ) (e : PExpr) (rest : List Tok) : Prop :=
  ∀ r, Ev (fun n => pLoop n l e rest) r → Ev (fun n => pBin n l (toks e ++ rest)) r

/-- Reading `e` at level 4. -/
def ReadsUnary (e : PExpr) (rest : List Tok) : Prop := Ev (fun n => pUnary n (toks e ++ rest)) (e, rest)

theorem readsAt_done {l : ℕ} {e : PExpr} {rest : List Tok} (h : ReadsAt l e rest) (hs : Stops l rest) :
    Ev (fun n => pBin n l (toks e ++ rest)) (e, rest) := h _ (loop_stops e hs)

theorem readsAt_lower {l : ℕ} (hl : l < 4) {e : PExpr} {rest : List Tok}
    (h : Ev (fun n => pBin n (l + 1) (toks e ++ rest)) (e, rest)) : ReadsAt l e rest := by
  intro r hr
  refine Ev.succ (g := fun n => (pBin n (l + 1) (toks e ++ rest)).bind fun p => pLoop n l p.1 p.2) (fun n => ?_)
    (Ev.bind (g := fun n p => pLoop n l p.1 p.2) h hr)
  rw [pBin, if_pos hl]

theorem bin4 {e : PExpr} {rest : List Tok} (h : ReadsUnary e rest) :
    Ev (fun n => pBin n 4 (toks e ++ rest)) (e, rest) := by
  refine Ev.succ (g := fun n => pUnary n (toks e ++ rest)) (fun n => ?_) h
  rw [pBin, if_neg (by omega)]

/-- From one level to all lower ones. -/
theorem readsAt_all {e : PExpr} {rest : List Tok} : ∀ (k l : ℕ), l + k = 4 → Stops (l + 1) rest →
    ReadsUnary e rest → l < 4 → ReadsAt l e rest
  | 0, l, h, _, _, hl => by omega
  | k + 1, l, h, hs, hu, hl => by
    refine readsAt_lower hl ?_
    by_cases h4 : l + 1 = 4
    · rw [h4]; exact bin4 hu
    · exact readsAt_done (readsAt_all k (l + 1) (by omega) (hs.mono (by omega)) hu (by omega)) hs

theorem readsAt_descend {e : PExpr} {rest : List Tok} {l' : ℕ} (h : ReadsAt l' e rest) (hl' : l' < 4) :
    ∀ (k l : ℕ), l + k = l' → Stops (l + 1) rest → ReadsAt l e rest
  | 0, l, hk, _ => by obtain rfl : l = l' := by omega
                      exact h
  | k + 1, l, hk, hs => by
    refine readsAt_lower (by omega) ?_
    exact readsAt_done (readsAt_descend h hl' k (l + 1) (by omega) (hs.mono (by omega))) hs

/-- What an item list is followed by. -/
def itemsEnd (t : Bool) (c : Op) (rest : List Tok) : List Tok :=
  (if t then [.op .comma] else []) ++ .op c :: rest

/-- No expression starts with a closing delimiter, a colon or a comma. -/
theorem toks_head {e : PExpr} (h : wf .expr e) : ∃ t ts, toks e = t :: ts ∧ ∀ c, (c = .rpar ∨ c = .rbrack ∨ c = .colon) → t ≠ .op c := by
  induction e with
  | name s => exact ⟨_, _, rfl, by simp⟩
  | int s => exact ⟨_, _, rfl, by simp⟩
  | float s => exact ⟨_, _, rfl, by simp⟩
  | str s => exact ⟨_, _, rfl, by simp⟩
  | paren e ih => exact ⟨_, _, rfl, by rintro c (rfl | rfl | rfl) <;> simp⟩
  | tuple e t ih => exact ⟨_, _, rfl, by rintro c (rfl | rfl | rfl) <;> simp⟩
  | call f es ih =>
    obtain ⟨t, ts, h1, h2⟩ := ih h.1
    exact ⟨t, _, by rw [toks, h1]; rfl, h2⟩
  | index f es ih =>
    obtain ⟨t, ts, h1, h2⟩ := ih h.1
    exact ⟨t, _, by rw [toks, h1]; rfl, h2⟩
  | attr f s ih =>
    obtain ⟨t, ts, h1, h2⟩ := ih h.1
    exact ⟨t, _, by rw [toks, h1]; rfl, h2⟩
  | full => exact h.elim
  | neg e ih => exact ⟨_, _, rfl, by rintro c (rfl | rfl | rfl) <;> simp⟩
  | bin o a b iha ihb =>
    obtain ⟨t, ts, h1, h2⟩ := iha h.1
    exact ⟨t, _, by rw [toks, h1]; rfl, h2⟩
  | nil => exact h.elim
  | cons e es => exact h.elim

/-- The three statements proved together. -/
structure Good (e : PExpr) : Prop where
  /-- an operand of calls, subscripts and attributes -/
  post : wf .expr e → level e = 5 → ∀ rest r, Ev (fun n => pPost n e rest) r →
    Ev (fun n => pUnary n (toks e ++ rest)) r
  unary : wf .expr e → 4 ≤ level e → ∀ rest, Stops 4 rest → ReadsUnary e rest
  at_ : wf .expr e → ∀ l ≤ level e, l < 4 → ∀ rest, Stops (l + 1) rest → ReadsAt l e rest
  args : wf .args e → ∀ t, (e = .nil → t = false) → ∀ rest start,
    (e = .nil → start = true) →
    Ev (fun n => pItems n .rpar start (toks e ++ itemsEnd t .rpar rest)) (e, t, rest)
  subs : wf .subs e → ∀ rest start, (e = .nil → start = true) →
    Ev (fun n => pItems n .rbrack start (toks e ++ .op .rbrack :: rest)) (e, false, rest)

/-- For trees of the highest level everything follows from `post`. -/
theorem good_of_post {e : PExpr} (h5 : level e = 5) (na : ¬ wf .args e) (ns : ¬ wf .subs e)
    (h : wf .expr e → ∀ rest r, Ev (fun n => pPost n e rest) r → Ev (fun n => pUnary n (toks e ++ rest)) r) : Good e where
  post hw _ := h hw
  unary hw _ rest hs := h hw rest _ (post_stops e hs)
  at_ hw l _ h4 rest hs :=
    readsAt_all (4 - l) l (by omega) hs (h hw rest _ (post_stops e hs)) h4
  args hw := absurd hw na
  subs hw := absurd hw ns

theorem pUnary_other {ts : List Tok} (h : ts.head? ≠ some (.op .minus)) (n : ℕ) :
    pUnary (n + 1) ts = (pAtom n ts).bind fun p => pPost n p.1 p.2 := by
  rw [pUnary]
  rintro r rfl
  simp at h

theorem pItem_other {ts : List Tok} (h : ts.head? ≠ some (.op .colon)) (n : ℕ) (c : Op) :
    pItem (n + 1) c ts = pBin n 0 ts := by
  rw [pItem]
  rintro r rfl
  simp at h

/-- A single token. -/
theorem unary_tok {e : PExpr} {t : Tok} (ht : t ≠ .op .minus) (h : ∀ n r, pAtom (n + 1) (t :: r) = some (e, r))
    (rest : List Tok) (r) (hr : Ev (fun n => pPost n e rest) r) : Ev (fun n => pUnary n (t :: rest)) r := by
  refine Ev.succ (g := fun n => (pAtom n (t :: rest)).bind fun p => pPost n p.1 p.2) (fun n => ?_)
    (Ev.bind (g := fun n p => pPost n p.1 p.2) (a := (e, rest)) (Ev.succ (fun n => h n rest) (Ev.pure _)) hr)
  exact pUnary_other (by simpa using ht) n

/-- An expression in parentheses. -/
theorem unary_lpar {ts rest : List Tok} {es : PExpr} {t : Bool}
    (h : Ev (fun n => pItems n .rpar true ts) (es, t, rest))
    (r) (hr : Ev (fun n => pPost n (mkParen es t) rest) r) : Ev (fun n => pUnary n (.op .lpar :: ts)) r := by
  refine Ev.succ (g := fun n => (pAtom n (.op .lpar :: ts)).bind fun p => pPost n p.1 p.2) (fun n => ?_)
    (Ev.bind (g := fun n p => pPost n p.1 p.2) (a := (mkParen es t, rest)) ?_ hr)
  · exact pUnary_other (by simp) n
  · exact Ev.succ (g := fun n => (pItems n .rpar true ts).map fun p => (mkParen p.1 p.2.1, p.2.2)) (fun n => rfl)
      (Ev.map (fun p : PExpr × Bool × List Tok => (mkParen p.1 p.2.1, p.2.2)) h)

theorem toks_cons (e es : PExpr) (h : es ≠ .nil) : toks (.cons e es) = toks e ++ .op .comma :: toks es := by
  cases es <;> first | exact absurd rfl h | rfl

theorem item_expr {e : PExpr} (hw : wf .expr e) (g : Good e) (c : Op) (rest : List Tok) (hs : Stops 0 rest) :
    Ev (fun n => pItem n c (toks e ++ rest)) (e, rest) := by
  obtain ⟨t, ts, h1, h2⟩ := toks_head hw
  refine Ev.succ (g := fun n => pBin n 0 (toks e ++ rest)) (fun n => ?_)
    (readsAt_done (g.at_ hw 0 (by omega) (by omega) rest (hs.mono (by omega))) hs)
  exact pItem_other (by rw [h1]; simpa using h2 _ (by simp)) n c

/-- One more element of a list. -/
theorem items_step {c : Op} (hc : c = .rpar ∨ c = .rbrack) {ts : List Tok} {start : Bool}
    (hh : ts.head? ≠ some (.op c)) {e : PExpr} {rest : List Tok} :
    (Ev (fun n => pItem n c ts) (e, .op c :: rest) → Ev (fun n => pItems n c start ts) (.cons e .nil, false, rest)) ∧
    (∀ r es t rest', Ev (fun n => pItem n c ts) (e, .op .comma :: r) → Ev (fun n => pItems n c false r) (es, t, rest') →
      Ev (fun n => pItems n c start ts) (.cons e es, t, rest')) := by
  have step : ∀ n, pItems (n + 1) c start ts = (pItem n c ts).bind fun p => pMore n c p.1 p.2 := by
    intro n; rw [pItems, if_neg hh]
  constructor
  · intro h
    refine Ev.succ step (Ev.bind (g := fun n p => pMore n c p.1 p.2) h ?_)
    exact Ev.succ (g := fun _ => some (.cons e .nil, false, rest)) (fun n => by simp only [pMore, if_true]) (Ev.pure _)
  · intro r es t rest' h hr
    refine Ev.succ step (Ev.bind (g := fun n p => pMore n c p.1 p.2) h ?_)
    refine Ev.succ (g := fun n => (pItems n c false r).map fun q => (.cons e q.1, q.2.1, q.2.2)) (fun n => ?_)
      (Ev.map (fun q : PExpr × Bool × List Tok => (PExpr.cons e q.1, q.2.1, q.2.2)) hr)
    simp only [pMore]
    rw [if_neg (by rcases hc with rfl | rfl <;> simp), if_pos trivial]

theorem items_close {c : Op} (start : Bool) (rest : List Tok) :
    Ev (fun n => pItems n c start (.op c :: rest)) (.nil, !start, rest) := by
  refine Ev.succ (g := fun _ => some (.nil, !start, rest)) (fun n => ?_) (Ev.pure _)
  rw [pItems, if_pos (by rfl)]; rfl

theorem stops_close {l : ℕ} {o : Op} (h : o = .rpar ∨ o = .rbrack ∨ o = .comma ∨ o = .colon ∨ o = .eq ∨ o = .semi) (r : List Tok) :
    Stops l (.op o :: r) := by
  rcases h with rfl | rfl | rfl | rfl | rfl | rfl <;> simp [Stops, opLevel]

theorem good (e : PExpr) : Good e := by
  induction e with
  | name s => exact good_of_post rfl id id fun _ rest r hr => unary_tok (by simp) (fun _ _ => rfl) rest r hr
  | int s => exact good_of_post rfl id id fun _ rest r hr => unary_tok (by simp) (fun _ _ => rfl) rest r hr
  | float s => exact good_of_post rfl id id fun _ rest r hr => unary_tok (by simp) (fun _ _ => rfl) rest r hr
  | str s => exact good_of_post rfl id id fun _ rest r hr => unary_tok (by simp) (fun _ _ => rfl) rest r hr
  | paren e ih =>
    refine good_of_post rfl id id fun hw rest r hr => ?_
    simp only [toks, List.cons_append, List.append_assoc, List.nil_append]
    refine unary_lpar (es := .cons e .nil) (t := false) (rest := rest) ?_ r hr
    have hw : wf .expr e := hw
    obtain ⟨t, ts, h1, h2⟩ := toks_head hw
    refine (items_step (Or.inl rfl) (by rw [h1]; simpa using h2 _ (by simp))).1 ?_
    exact item_expr hw ih _ _ (stops_close (by simp) _)
  | tuple es t ih =>
    refine good_of_post rfl id id fun hw rest r hr => ?_
    simp only [toks, List.cons_append, List.append_assoc, List.nil_append]
    refine unary_lpar (es := es) (t := t) (rest := rest) ?_ r ?_
    · have := ih.args hw.1 t hw.2.1 rest true (fun _ => rfl)
      simpa [itemsEnd] using this
    · have : mkParen es t = .tuple es t := by
        unfold mkParen
        split
        · exact absurd rfl (hw.2.2 rfl _)
        · rfl
      rwa [this]
  | call f es ihf ihe =>
    refine good_of_post rfl id id fun hw rest r hr => ?_
    simp only [toks, List.cons_append, List.append_assoc, List.nil_append]
    refine ihf.post hw.1 hw.2.1 _ r ?_
    refine Ev.succ (g := fun n => (pItems n .rpar true (toks es ++ .op .rpar :: rest)).bind fun p =>
        if p.2.1 then none else pPost n (.call f p.1) p.2.2) (fun n => by rw [pPost]) ?_
    refine Ev.bind (g := fun n p => if p.2.1 then none else pPost n (.call f p.1) p.2.2) (a := (es, false, rest)) ?_ ?_
    · simpa [itemsEnd] using ihe.args hw.2.2 false (fun _ => rfl) rest true (fun _ => rfl)
    · exact Ev.congr (fun n => by simp) hr
  | index e es ihe ihs =>
    refine good_of_post rfl id id fun hw rest r hr => ?_
    simp only [toks, List.cons_append, List.append_assoc, List.nil_append]
    refine ihe.post hw.1 hw.2.1 _ r ?_
    refine Ev.succ (g := fun n => (pItems n .rbrack true (toks es ++ .op .rbrack :: rest)).bind fun p =>
        if p.2.1 ∨ p.1 = .nil then none else pPost n (.index e p.1) p.2.2) (fun n => by rw [pPost]) ?_
    refine Ev.bind (g := fun n p => if p.2.1 ∨ p.1 = .nil then none else pPost n (.index e p.1) p.2.2)
      (a := (es, false, rest)) ?_ ?_
    · exact ihs.subs hw.2.2.1 rest true (fun _ => rfl)
    · exact Ev.congr (fun n => by simp [hw.2.2.2]) hr
  | attr e s ih =>
    refine good_of_post rfl id id fun hw rest r hr => ?_
    simp only [toks, List.cons_append, List.append_assoc, List.nil_append]
    refine ih.post hw.1 hw.2 _ r ?_
    exact Ev.succ (fun n => by rw [pPost]) hr
  | full => exact ⟨fun h => h.elim, fun h => h.elim, fun h => h.elim, fun h => h.elim, fun h => h.elim⟩
  | neg e ih =>
    have hu : wf .expr (.neg e) → ∀ rest, Stops 4 rest → ReadsUnary (.neg e) rest := by
      intro hw rest hs
      simp only [ReadsUnary, toks, List.cons_append]
      refine Ev.succ (g := fun n => (pUnary n (toks e ++ rest)).map fun p => (.neg p.1, p.2)) (fun n => by rw [pUnary]) ?_
      exact Ev.map (fun p : PExpr × List Tok => (PExpr.neg p.1, p.2)) (ih.unary hw.1 hw.2 rest hs)
    refine ⟨fun _ h => by simp [level] at h, fun hw _ => hu hw, fun hw l _ h4 rest hs => ?_, fun h => h.elim, fun h => h.elim⟩
    exact readsAt_all (4 - l) l (by omega) hs (hu hw rest (hs.mono (by omega))) h4
  | bin o a b iha ihb =>
    refine ⟨fun hw h => ?_, fun hw h => ?_, fun hw l hl h4 rest hs => ?_, fun h => h.elim, fun h => h.elim⟩
    · obtain ⟨_, _, l, h1, _⟩ := hw
      have := opLevel_lt h1
      simp [level, h1] at h; omega
    · obtain ⟨_, _, l, h1, _⟩ := hw
      have := opLevel_lt h1
      simp [level, h1] at h; omega
    · obtain ⟨ha, hb, l', h1, h2, h3⟩ := hw
      have h4' := opLevel_lt h1
      have hl' : l ≤ l' := by simpa [level, h1] using hl
      refine readsAt_descend (l' := l') ?_ h4' (l' - l) l (by omega) hs
      intro r hr
      simp only [toks, List.append_assoc, List.cons_append]
      refine iha.at_ ha l' h2 h4' _ (stops_op h1 (by omega) _) r ?_
      refine Ev.succ (g := fun n => (pBin n (l' + 1) (toks b ++ rest)).bind fun p => pLoop n l' (.bin o a p.1) p.2)
        (fun n => by rw [pLoop]; simp only [if_pos h1]) ?_
      refine Ev.bind (g := fun n p => pLoop n l' (.bin o a p.1) p.2) (a := (b, rest)) ?_ hr
      have hs1 : Stops (l' + 1) rest := hs.mono (by omega)
      by_cases h5 : l' + 1 = 4
      · rw [h5]
        exact bin4 (ihb.unary hb (by omega) rest (h5 ▸ hs1))
      · exact readsAt_done (ihb.at_ hb (l' + 1) (by omega) (by omega) rest (hs1.mono (by omega))) hs1
  | nil =>
    refine ⟨fun h => h.elim, fun h => h.elim, fun h => h.elim, fun _ t ht rest start hst => ?_, fun _ rest start hst => ?_⟩
    · rw [ht rfl, hst rfl]
      simpa [itemsEnd, toks] using items_close (c := .rpar) true rest
    · rw [hst rfl]
      simpa [toks] using items_close (c := .rbrack) true rest
  | cons e es ihe ihs =>
    refine ⟨fun h => h.elim, fun h => h.elim, fun h => h.elim, fun hw t _ rest start _ => ?_, fun hw rest start _ => ?_⟩
    · obtain ⟨u, us, h1, h2⟩ := toks_head hw.1
      by_cases hn : es = .nil
      · subst hn
        simp only [toks]
        have hh : (toks e ++ itemsEnd t .rpar rest).head? ≠ some (.op .rpar) := by
          rw [h1]; simpa using h2 _ (by simp)
        cases t with
        | false => exact (items_step (Or.inl rfl) hh).1 (item_expr hw.1 ihe _ _ (stops_close (by simp) _))
        | true =>
          refine (items_step (rest := rest) (Or.inl rfl) hh).2 (.op .rpar :: rest) .nil true rest
            (item_expr hw.1 ihe _ _ (stops_close (by simp) _)) ?_
          simpa using items_close (c := .rpar) false rest
      · rw [toks_cons e es hn, List.append_assoc, List.cons_append]
        have hh : (toks e ++ .op .comma :: (toks es ++ itemsEnd t .rpar rest)).head? ≠ some (.op .rpar) := by
          rw [h1]; simpa using h2 _ (by simp)
        exact (items_step (rest := rest) (Or.inl rfl) hh).2 _ es t rest (item_expr hw.1 ihe _ _ (stops_close (by simp) _))
          (ihs.args hw.2 t (fun h => absurd h hn) rest false (fun h => absurd h hn))
    · have key : ∀ tail : List Tok, Stops 0 tail → Ev (fun n => pItem n .rbrack (toks e ++ tail)) (e, tail) ∧
          (toks e ++ tail).head? ≠ some (.op .rbrack) := by
        intro tail ht
        rcases hw.1 with rfl | hwe
        · refine ⟨Ev.succ (g := fun _ => some (.full, tail)) (fun n => ?_) (Ev.pure _), by simp [toks]⟩
          simp [toks, pItem]
        · obtain ⟨u, us, h1, h2⟩ := toks_head hwe
          refine ⟨item_expr hwe ihe _ _ ht, ?_⟩
          rw [h1]; simpa using h2 _ (by simp)
      by_cases hn : es = .nil
      · subst hn
        simp only [toks]
        obtain ⟨k1, k2⟩ := key (.op .rbrack :: rest) (stops_close (by simp) _)
        exact (items_step (Or.inr rfl) k2).1 k1
      · rw [toks_cons e es hn, List.append_assoc, List.cons_append]
        obtain ⟨k1, k2⟩ := key (.op .comma :: (toks es ++ .op .rbrack :: rest)) (stops_close (by simp) _)
        exact (items_step (rest := rest) (Or.inr rfl) k2).2 _ es false rest k1 (ihs.subs hw.2 rest false (fun h => absurd h hn))

/-- Expressions are read back. -/
theorem read_expr {e : PExpr} (hw : wf .expr e) {rest : List Tok} (hs : Stops 0 rest) :
    Ev (fun n => pBin n 0 (toks e ++ rest)) (e, rest) :=
  readsAt_done ((good e).at_ hw 0 (by omega) (by omega) rest (hs.mono (by omega))) hs

end Interp.PyParse
