import Verif.Proofs.TemplateLex

/-!
# The parser of the template engine: it terminates, and where it reports errors
-/

namespace Interp.Tempita

open Spec.Templates

/-- The positions of the codes. -/
def positions : List Chunk → List Pos
  | [] => []
  | .text _ :: ts => positions ts
  | .code _ p :: ts => p :: positions ts

theorem mem_positions {p : Pos} : ∀ {ts : List Chunk}, p ∈ positions ts ↔ ∃ s, Chunk.code s p ∈ ts
  | [] => by simp [positions]
  | .text _ :: ts => by simp [positions, mem_positions (ts := ts)]
  | .code s q :: ts => by
    simp only [positions, List.mem_cons, mem_positions (ts := ts), Chunk.code.injEq]
    constructor
    · rintro (rfl | ⟨s', h⟩)
      · exact ⟨s, Or.inl ⟨rfl, rfl⟩⟩
      · exact ⟨s', Or.inr h⟩
    · rintro ⟨s', ⟨_, rfl⟩ | h⟩
      · exact Or.inl rfl
      · exact Or.inr ⟨s', h⟩

theorem positions_suffix {ts ts' : List Chunk} (h : ts' <:+ ts) {p : Pos} (hp : p ∈ positions ts') : p ∈ positions ts := by
  rw [mem_positions] at hp ⊢
  obtain ⟨s, hs⟩ := hp
  exact ⟨s, h.subset hs⟩

/-- An error of the parser: not raised by Python code, and at one of the places `ps`. -/
def GoodErr (ps : List Pos) : TErr → Prop
  | .template p => p ∈ ps
  | .python _ => False
  | _ => True

/-- A result of the parser on `ts`: a shorter rest (`d` fewer tokens), or an error at one of the places `ps`. -/
def Good {α : Type} (d : ℕ) (ts : List Chunk) (ps : List Pos) : Except TErr (α × List Chunk) → Prop
  | .ok r => r.2 <:+ ts ∧ r.2.length + d ≤ ts.length
  | .error e => GoodErr ps e

/-- The same for a function without rest. -/
def GoodHead {α : Type} (ps : List Pos) : Except TErr α → Prop
  | .ok _ => True
  | .error e => GoodErr ps e

theorem GoodErr.mono {ps qs : List Pos} (h : ∀ p ∈ ps, p ∈ qs) {e : TErr} (he : GoodErr ps e) : GoodErr qs e := by
  cases e <;> simp only [GoodErr] at he ⊢
  exact h _ he

theorem parsePy_good (e : Str) (pos : Pos) : GoodHead [pos] (parsePy e pos) := by
  unfold parsePy
  dsimp only
  split
  · trivial
  · trivial
  · split_ifs
    · exact List.mem_singleton.2 rfl
    · trivial

theorem forHead_good (raw : Str) (pos : Pos) : GoodHead [pos] (forHead raw pos) := by
  unfold forHead
  split_ifs
  · dsimp only
    split
    · exact List.mem_singleton.2 rfl
    · split_ifs
      · exact List.mem_singleton.2 rfl
      · trivial
  · trivial

theorem parseDefault_good (raw : Str) (pos : Pos) : GoodHead [pos] (parseDefault raw pos) := by
  unfold parseDefault
  split_ifs
  · split
    · trivial
    · dsimp only
      split_ifs
      · exact List.mem_singleton.2 rfl
      · trivial
      · exact List.mem_singleton.2 rfl
      · exact List.mem_singleton.2 rfl
  · trivial

theorem parseInherit_good (raw : Str) (pos : Pos) : GoodHead [pos] (parseInherit raw pos) := by
  unfold parseInherit
  split_ifs
  · split <;> trivial
  · trivial

theorem defHead_good (raw : Str) (pos : Pos) : GoodHead [pos] (defHead raw pos) := by
  unfold defHead
  split_ifs
  · split
    · trivial
    · dsimp only
      split_ifs
      · trivial
      · exact List.mem_singleton.2 rfl
      · trivial
  · trivial

theorem condHead_good (raw : Str) (ps : List Pos) : GoodHead ps (condHead raw) := by
  unfold condHead
  dsimp only
  split_ifs <;> trivial

/-- Sequencing a head. -/
theorem Good.head {α β : Type} {d : ℕ} {ts : List Chunk} {ps : List Pos} {x : Except TErr α}
    {f : α → Except TErr (β × List Chunk)} (hx : GoodHead ps x) (hf : ∀ a, x = .ok a → Good d ts ps (f a)) :
    Good d ts ps (x >>= f) := by
  cases x with
  | error e => exact hx
  | ok a => exact hf a rfl

/-- Sequencing two parsers. -/
theorem Good.bind {α β : Type} {d d' : ℕ} {ts ts0 : List Chunk} {ps : List Pos} {x : Except TErr (α × List Chunk)}
    {f : α × List Chunk → Except TErr (β × List Chunk)} (hx : Good d ts ps x)
    (hf : ∀ r, r.2 <:+ ts → r.2.length + d ≤ ts.length → Good d' ts0 ps (f r)) : Good d' ts0 ps (x >>= f) := by
  cases x with
  | error e => exact hx
  | ok r => exact hf r hx.1 hx.2

theorem Good.mono {α : Type} {d d' : ℕ} {ts ts' : List Chunk} {ps ps' : List Pos} {x : Except TErr (α × List Chunk)}
    (hx : Good d ts ps x) (hs : ts <:+ ts') (hd : ts.length + d' ≤ ts'.length + d) (hp : ∀ p ∈ ps, p ∈ ps') :
    Good d' ts' ps' x := by
  cases x with
  | error e => exact GoodErr.mono hp hx
  | ok r => exact ⟨hx.1.trans hs, by have := hx.2; omega⟩

theorem GoodHead.mono {α : Type} {ps ps' : List Pos} {x : Except TErr α} (hx : GoodHead ps x) (hp : ∀ p ∈ ps, p ∈ ps') :
    GoodHead ps' x := by
  cases x with
  | error e => exact GoodErr.mono hp hx
  | ok r => trivial

theorem Good.ite {α : Type} {d : ℕ} {ts : List Chunk} {ps : List Pos} {c : Prop} [Decidable c]
    {x y : Except TErr (α × List Chunk)} (hx : Good d ts ps x) (hy : Good d ts ps y) :
    Good d ts ps (if c then x else y) := by
  by_cases h : c
  · rwa [if_pos h]
  · rwa [if_neg h]

mutual
theorem parseExpr_good : ∀ (f : ℕ) (inFor : Bool) (ts : List Chunk), 3 * ts.length ≤ f → ts ≠ [] →
    Good 1 ts (positions ts) (parseExpr f inFor ts)
  | 0, _, ts, h, h0 => by
    exact absurd (List.length_eq_zero_iff.1 (by omega)) h0
  | f + 1, _, [], _, h0 => absurd rfl h0
  | f + 1, _, .text s :: ts, _, _ => ⟨List.suffix_cons _ _, by simp⟩
  | f + 1, inFor, .code raw pos :: ts, h, _ => by
    have hpos : ∀ p ∈ [pos], p ∈ positions (.code raw pos :: ts) := by simp [positions]
    have here : GoodErr (positions (.code raw pos :: ts)) (.template pos) := by simp [GoodErr, positions]
    have rest : ∀ n : Node, Good 1 (.code raw pos :: ts) (positions (.code raw pos :: ts))
        (.ok (n, ts)) := fun n => ⟨List.suffix_cons _ _, by simp⟩
    simp only [List.length_cons] at h
    have until_ : ∀ b stop, Good 0 ts (positions (.code raw pos :: ts)) (parseUntil f b stop pos ts) := fun b stop =>
      (parseUntil_good f b stop pos ts (by omega)).mono (List.suffix_refl _) le_rfl (by simp [positions])
    rw [parseExpr]
    dsimp only
    refine Good.ite (Good.head ((parsePy_good _ _).mono hpos) fun n _ => rest n) ?_
    refine Good.ite (Good.ite (rest _) here) (Good.ite (Good.ite (rest _) here) ?_)
    refine Good.ite ?_ (Good.ite here (Good.ite here (Good.ite here (Good.ite ?_ (Good.ite ?_ (Good.ite ?_
      (Good.ite ?_ (Good.ite (rest _) (rest _)))))))))
    · refine Good.bind ((parseCond_good f inFor pos (.code raw pos :: ts) (by simp; omega) (by omega)).mono
        (List.suffix_refl _) le_rfl (ps' := positions (.code raw pos :: ts)) (by simp [positions])) ?_
      rintro ⟨ps, ts'⟩ h1 h2
      exact ⟨h1, by simpa using h2⟩
    · refine Good.head ((forHead_good _ _).mono hpos) ?_
      rintro ⟨vars, ex⟩ _
      refine Good.bind (until_ _ _) ?_
      rintro ⟨body, ts'⟩ h1 h2
      exact ⟨(List.drop_suffix 1 ts').trans (h1.trans (List.suffix_cons _ _)), by simp at h2 ⊢; omega⟩
    · exact Good.head ((parseDefault_good _ _).mono hpos) fun n _ => rest n
    · exact Good.head ((parseInherit_good _ _).mono hpos) fun n _ => rest n
    · refine Good.head ((defHead_good _ _).mono hpos) ?_
      rintro name _
      refine Good.bind (until_ _ _) ?_
      rintro ⟨body, ts'⟩ h1 h2
      exact ⟨(List.drop_suffix 1 ts').trans (h1.trans (List.suffix_cons _ _)), by simp at h2 ⊢; omega⟩
theorem parseUntil_good : ∀ (f : ℕ) (inFor : Bool) (stop : Str → Bool) (pos : Pos) (ts : List Chunk),
    3 * ts.length + 1 ≤ f → Good 0 ts (pos :: positions ts) (parseUntil f inFor stop pos ts)
  | 0, _, _, _, ts, h => by omega
  | f + 1, inFor, stop, pos, ts, h => by
    rw [parseUntil]
    split_ifs with h0 h1
    · exact List.mem_cons_self
    · exact ⟨List.suffix_refl _, by simp⟩
    · refine Good.bind ((parseExpr_good f inFor ts (by omega) h0).mono (List.suffix_refl _) le_rfl
        (ps' := pos :: positions ts) (fun p hp => List.mem_cons_of_mem _ hp)) ?_
      rintro ⟨n, ts'⟩ h1 h2
      dsimp only at h1 h2 ⊢
      refine Good.bind ((parseUntil_good f inFor stop pos ts' (by omega)).mono (List.suffix_refl _) le_rfl
        (ps' := pos :: positions ts) ?_) ?_
      · intro p hp
        rcases List.mem_cons.1 hp with rfl | hp
        · exact List.mem_cons_self
        · exact List.mem_cons_of_mem _ (positions_suffix h1 hp)
      · rintro ⟨ns, ts''⟩ h3 h4
        exact ⟨h3.trans h1, by simp at h4 ⊢; omega⟩
theorem parseCond_good : ∀ (f : ℕ) (inFor : Bool) (start : Pos) (ts : List Chunk),
    3 * ts.length ≤ f + 1 → 1 ≤ f → Good (min 1 ts.length) ts (start :: positions ts) (parseCond f inFor start ts)
  | 0, _, _, ts, _, h => by omega
  | f + 1, _, start, [], _, _ => by rw [parseCond] <;> [exact List.mem_cons_self; omega]
  | f + 1, _, _, .text _ :: _, _, _ => by rw [parseCond] <;> [trivial; omega]
  | f + 1, inFor, start, .code raw pos :: ts, h, _ => by
    simp only [List.length_cons] at h
    rw [parseCond]
    split_ifs
    · exact ⟨List.suffix_cons _ _, by simp⟩
    · refine Good.head (condHead_good _ _) ?_
      rintro test _
      refine Good.bind ((parseUntil_good f inFor stopIf pos ts (by omega)).mono (List.suffix_refl _) le_rfl
        (ps' := start :: positions (.code raw pos :: ts)) ?_) ?_
      · intro p hp; exact List.mem_cons_of_mem _ hp
      · rintro ⟨body, ts'⟩ h1 h2
        dsimp only at h1 h2 ⊢
        refine Good.bind ((parseCond_good f inFor start ts' (by omega) (by omega)).mono (List.suffix_refl _) le_rfl
          (ps' := start :: positions (.code raw pos :: ts)) ?_) ?_
        · intro p hp
          rcases List.mem_cons.1 hp with rfl | hp
          · exact List.mem_cons_self
          · exact List.mem_cons_of_mem _ (List.mem_cons_of_mem _ (positions_suffix h1 hp))
        · rintro ⟨ns, ts''⟩ h3 h4
          exact ⟨h3.trans (h1.trans (List.suffix_cons _ _)), by simp at h4 ⊢; omega⟩
end

theorem parseAll_good : ∀ (f : ℕ) (ts : List Chunk), 3 * ts.length + 1 ≤ f →
    GoodHead (positions ts) (parseAll f ts)
  | 0, ts, h => by omega
  | f + 1, [], _ => trivial
  | f + 1, t :: ts, h => by
    rw [parseAll]
    · have h1 := parseExpr_good f false (t :: ts) (by omega) (by simp)
      cases hx : parseExpr f false (t :: ts) with
      | error e => rw [hx] at h1; exact h1
      | ok r =>
        rw [hx] at h1
        have h2 := parseAll_good f r.2 (by have := h1.2; omega)
        show GoodHead _ (parseAll f r.2 >>= _)
        cases hy : parseAll f r.2 with
        | error e => rw [hy] at h2; exact GoodErr.mono (fun p hp => positions_suffix h1.1 hp) h2
        | ok _ => trivial
    · simp

end Interp.Tempita
