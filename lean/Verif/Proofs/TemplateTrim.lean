import Verif.Proofs.TemplateParse

/-!
# Trimming of white space in templates
-/

namespace Interp.Tempita

open Spec.Templates

theorem isBlank_space {c : Char} (h : isBlank c) : isSpace c := by
  simp only [isBlank, Bool.or_eq_true, beq_iff_eq] at h
  rcases h with rfl | rfl <;> decide

theorem all_of_dropWhile_nil {p : Char → Bool} : ∀ {s : Str}, s.dropWhile p = [] → ∀ x ∈ s, p x
  | [], _ => by simp
  | c :: s, h => by
    by_cases hc : p c
    · rw [List.dropWhile_cons_of_pos hc] at h
      intro x hx
      rcases List.mem_cons.1 hx with rfl | hx
      · exact hc
      · exact all_of_dropWhile_nil h x hx
    · rw [List.dropWhile_cons_of_neg hc] at h
      exact absurd h (by simp)

theorem strip_nil {s : Str} (h : strip s = []) : ∀ x ∈ s, isSpace x := by
  unfold strip rstrip lstrip at h
  have h1 := all_of_dropWhile_nil (List.reverse_eq_nil_iff.1 h)
  intro x hx
  rw [← List.takeWhile_append_dropWhile (p := isSpace) (l := s)] at hx
  rcases List.mem_append.1 hx with hx | hx
  · exact List.mem_takeWhile_imp hx
  · exact h1 x (by simpa using hx)

theorem split_blank (t : Str) : ∃ a, t = a ++ t.dropWhile isBlank ∧ ∀ x ∈ a, isSpace x :=
  ⟨t.takeWhile isBlank, (List.takeWhile_append_dropWhile).symm, fun _ hx => isBlank_space (List.mem_takeWhile_imp hx)⟩

theorem trailTail_space {t : Str} (h : trailTail t) : ∀ x ∈ t, isSpace x := by
  have key : ∀ t : Str, (t.dropWhile isBlank == [] || t.dropWhile isBlank == ['\n']) = true → ∀ x ∈ t, isSpace x := by
    intro t h x hx
    obtain ⟨a, ha, hs⟩ := split_blank t
    rw [ha] at hx
    rcases List.mem_append.1 hx with hx | hx
    · exact hs x hx
    · simp only [Bool.or_eq_true, beq_iff_eq] at h
      rcases h with h | h
      · rw [h] at hx; simp at hx
      · rw [h] at hx
        simp only [List.mem_singleton] at hx
        subst hx; decide
  unfold trailTail at h
  dsimp only at h
  split at h
  · intro x hx
    rcases List.mem_cons.1 hx with rfl | hx
    · decide
    · exact key _ h x hx
  · exact key _ h

theorem trailMatch_space : ∀ {s : Str} {m : ℕ}, trailMatch s = some m → ∀ x ∈ s.drop m, isSpace x
  | [], m, h => by simp [trailMatch] at h
  | c :: s, m, h => by
    rw [trailMatch] at h
    split_ifs at h with h'
    · cases h
      intro x hx
      rcases List.mem_cons.1 hx with rfl | hx
      · rw [h'.1]; decide
      · exact trailTail_space h'.2 x hx
    · obtain ⟨k, hk, rfl⟩ := Option.map_eq_some_iff.1 h
      rw [List.drop_succ_cons]
      exact trailMatch_space hk

theorem leadMatch_space {s r : Str} (h : leadMatch s = some r) : ∃ a, s = a ++ r ∧ ∀ x ∈ a, isSpace x := by
  obtain ⟨a, ha, hs⟩ := split_blank s
  unfold leadMatch at h
  split at h
  · rename_i r' hr
    cases h
    refine ⟨a ++ ['\n'], by rw [ha, hr]; simp, ?_⟩
    intro x hx
    rcases List.mem_append.1 hx with hx | hx
    · exact hs x hx
    · simp only [List.mem_singleton] at hx
      subst hx; decide
  · cases h

theorem Trimmed.refl (b a : Option Chunk) (c : Chunk) : Trimmed b a c c := by
  cases c with
  | code s p => rfl
  | text t => exact ⟨[], t, [], rfl, by simp, by simp, by simp, by simp⟩

theorem Trimmed.trans {b a : Option Chunk} {c d e : Chunk} (h : Trimmed b a c d) (h' : Trimmed b a d e) : Trimmed b a c e := by
  cases c with
  | code s p => cases h; exact h'
  | text t =>
    obtain ⟨x, t', z, rfl, rfl, hs, hx, hz⟩ := h
    obtain ⟨x', t'', z', rfl, rfl, hs', hx', hz'⟩ := h'
    refine ⟨x ++ x', t'', z' ++ z, rfl, by simp, ?_, ?_, ?_⟩
    · intro y hy
      simp only [List.mem_append] at hy hs hs'
      rcases hy with (hy | hy) | (hy | hy)
      · exact hs y (Or.inl hy)
      · exact hs' y (Or.inl hy)
      · exact hs' y (Or.inr hy)
      · exact hs y (Or.inr hy)
    · intro h
      by_cases hx0 : x = []
      · exact hx' (by simpa [hx0] using h)
      · exact hx hx0
    · intro h
      by_cases hz0 : z = []
      · exact hz' (by simpa [hz0] using h)
      · exact hz hz0

theorem _root_.Interp.Spec.Templates.AllTrimmed.refl (cs : List Chunk) : AllTrimmed cs cs :=
  ⟨rfl, fun i c d hc hd => by rw [hc] at hd; cases hd; exact Trimmed.refl _ _ _⟩

/-- Trim one chunk more. -/
theorem _root_.Interp.Spec.Templates.AllTrimmed.set {cs ds : List Chunk} (h : AllTrimmed cs ds) {i : ℕ} {d e : Chunk} (hd : ds[i]? = some d)
    (he : Trimmed (prevOf cs i) cs[i + 1]? d e) : AllTrimmed cs (ds.set i e) := by
  refine ⟨by rw [List.length_set, h.1], ?_⟩
  intro j c d' hc hd'
  rw [List.getElem?_set] at hd'
  split_ifs at hd' with hij hl
  · subst hij
    cases hd'
    exact Trimmed.trans (h.2 i c d hc hd) he
  · exact h.2 j c d' hc hd'

theorem _root_.Interp.Spec.Templates.AllTrimmed.code {cs ds : List Chunk} (h : AllTrimmed cs ds) {i : ℕ} {s : Str} {p : Pos}
    (hd : ds[i]? = some (.code s p)) : cs[i]? = some (.code s p) := by
  have hl : i < cs.length := by rw [← h.1]; exact (List.getElem?_eq_some_iff.1 hd).1
  have hc : cs[i]? = some cs[i] := List.getElem?_eq_getElem hl
  have := h.2 i _ _ hc hd
  rw [hc]
  cases hcs : cs[i] with
  | code s' p' => rw [hcs] at this; exact congrArg some this.symm
  | text t =>
    rw [hcs] at this
    obtain ⟨_, _, _, h, _⟩ := this
    cases h

theorem trimStep_trimmed {cs : List Chunk} {st : TrimState} (h : AllTrimmed cs st.tokens) (i : ℕ) :
    AllTrimmed cs (trimStep st i).tokens := by
  unfold trimStep
  split
  swap
  · exact h
  rename_i item p hi
  have hci := h.code hi
  by_cases hst : isStatement item
  swap
  · rw [if_neg hst]; exact h
  rw [if_pos hst]
  dsimp only
  generalize hprev : (if i = 0 then Chunk.text [] else st.tokens.getD (i - 1) (.text [])) = P
  generalize hnext : (if st.tokens.length ≤ i + 1 then Chunk.text [] else st.tokens.getD (i + 1) (.text [])) = N
  cases P with
  | code s q => exact h
  | text prev =>
  cases N with
  | code s q => exact h
  | text next =>
  dsimp only
  split
  swap
  · exact h
  rename_i hcond
  have hlt : i < st.tokens.length := (List.getElem?_eq_some_iff.1 hi).1
  -- the chunk before
  have before : AllTrimmed cs (if prev = [] then st.tokens
      else if (i = 1 ∧ strip prev = []) ∨ (st.lastTrim.map (· + 2) = some i ∧ strip prev = []) then
        st.tokens.set (i - 1) (.text [])
      else st.tokens.set (i - 1) (.text (prev.take ((trailMatch prev).getD 0 + 1)))) := by
    by_cases hp0 : prev = []
    · rw [if_pos hp0]; exact h
    · rw [if_neg hp0]
      have hi0 : i ≠ 0 := by
        rintro rfl
        rw [if_pos rfl] at hprev
        cases hprev; exact hp0 rfl
      rw [if_neg hi0] at hprev
      have hpt : st.tokens[i - 1]? = some (.text prev) := by
        rw [List.getElem?_eq_getElem (by omega), ← hprev, List.getD_eq_getElem?_getD, List.getElem?_eq_getElem (by omega)]
        rfl
      have hafter : cs[i - 1 + 1]? = some (.code item p) := by
        rw [Nat.sub_add_cancel (Nat.pos_of_ne_zero hi0)]; exact hci
      split_ifs with hfl
      · refine h.set hpt ⟨[], [], prev, rfl, by simp, ?_, by simp, fun _ => ⟨item, p, hafter, hst⟩⟩
        simpa using strip_nil (by tauto)
      · have hm : (trailMatch prev).isSome := by tauto
        obtain ⟨m, hm⟩ := Option.isSome_iff_exists.1 hm
        rw [hm]
        refine h.set hpt ⟨[], prev.take (m + 1), prev.drop (m + 1), rfl, by simp, ?_, by simp,
          fun _ => ⟨item, p, hafter, hst⟩⟩
        intro x hx
        refine trailMatch_space hm x ?_
        rw [List.nil_append, ← List.drop_drop] at hx
        exact List.mem_of_mem_drop hx
  -- the chunk after
  have next_same : next ≠ [] → (if prev = [] then st.tokens
      else if (i = 1 ∧ strip prev = []) ∨ (st.lastTrim.map (· + 2) = some i ∧ strip prev = []) then
        st.tokens.set (i - 1) (.text [])
      else st.tokens.set (i - 1) (.text (prev.take ((trailMatch prev).getD 0 + 1))))[i + 1]? = some (.text next) := by
    intro hn0
    have hl : ¬ st.tokens.length ≤ i + 1 := by
      intro hl
      rw [if_pos hl] at hnext
      cases hnext; exact hn0 rfl
    rw [if_neg hl] at hnext
    have : st.tokens[i + 1]? = some (.text next) := by
      rw [List.getElem?_eq_getElem (by omega), ← hnext, List.getD_eq_getElem?_getD, List.getElem?_eq_getElem (by omega)]
      rfl
    split_ifs
    · exact this
    · rw [List.getElem?_set_ne (by omega)]; exact this
    · rw [List.getElem?_set_ne (by omega)]; exact this
  have hbefore : prevOf cs (i + 1) = some (.code item p) := hci
  by_cases hn0 : next = []
  · rw [if_pos hn0]; exact before
  rw [if_neg hn0]
  by_cases hfin : i + 2 = st.tokens.length ∧ strip next = []
  · rw [if_pos hfin]
    refine before.set (next_same hn0) ⟨next, [], [], rfl, by simp, ?_, fun _ => ⟨item, p, hbefore, hst⟩, by simp⟩
    simpa using strip_nil hfin.2
  · rw [if_neg hfin]
    have hm : (leadMatch next).isSome := by tauto
    obtain ⟨r, hr⟩ := Option.isSome_iff_exists.1 hm
    obtain ⟨a, ha, hs⟩ := leadMatch_space hr
    rw [hr]
    exact before.set (next_same hn0) ⟨a, r, [], rfl, by simpa using ha, by simpa using hs,
      fun _ => ⟨item, p, hbefore, hst⟩, by simp⟩

theorem foldl_trimmed {cs : List Chunk} : ∀ (is : List ℕ) (st : TrimState), AllTrimmed cs st.tokens →
    AllTrimmed cs (is.foldl trimStep st).tokens
  | [], _, h => h
  | i :: is, st, h => foldl_trimmed is (trimStep st i) (trimStep_trimmed h i)

/-- Trimming removes only white space beside statements. -/
theorem trimLex_trimmed (cs : List Chunk) : AllTrimmed cs (trimLex cs) :=
  foldl_trimmed _ _ (AllTrimmed.refl cs)

/-- Without statements nothing is removed. -/
theorem trimLex_plain {cs : List Chunk} (h : ∀ s p, Chunk.code s p ∈ cs → isStatement s = false) : trimLex cs = cs := by
  have ht := trimLex_trimmed cs
  refine List.ext_getElem? fun i => ?_
  by_cases hi : i < cs.length
  · have hi' : i < (trimLex cs).length := by rw [ht.1]; exact hi
    rw [List.getElem?_eq_getElem hi, List.getElem?_eq_getElem hi']
    have := ht.2 i _ _ (List.getElem?_eq_getElem hi) (List.getElem?_eq_getElem hi')
    cases hc : cs[i] with
    | code s p => rw [hc] at this; exact congrArg some this
    | text t =>
      rw [hc] at this
      obtain ⟨a, t', z, h1, h2, _, h3, h4⟩ := this
      have ha : a = [] := by
        by_contra h0
        obtain ⟨s, p, hb, hs⟩ := h3 h0
        unfold prevOf at hb
        split_ifs at hb
        rw [h s p (List.mem_of_getElem? hb)] at hs
        cases hs
      have hz : z = [] := by
        by_contra h0
        obtain ⟨s, p, hb, hs⟩ := h4 h0
        rw [h s p (List.mem_of_getElem? hb)] at hs
        cases hs
      subst ha hz
      rw [h1, h2]; simp
  · rw [List.getElem?_eq_none (l := cs) (by omega), List.getElem?_eq_none (l := trimLex cs) (by rw [ht.1]; omega)]

/-- The codes keep their positions. -/
theorem trimLex_code {cs : List Chunk} {s : Str} {p : Pos} (h : Chunk.code s p ∈ trimLex cs) : Chunk.code s p ∈ cs := by
  obtain ⟨i, hi⟩ := List.mem_iff_getElem?.1 h
  exact List.mem_of_getElem? ((trimLex_trimmed cs).code hi)

/-! ### A statement on a line of its own -/

theorem leadMatch_own {b u : Str} (hb : ∀ c ∈ b, c = ' ' ∨ c = '\t') : leadMatch (b ++ '\n' :: u) = some u := by
  unfold leadMatch
  rw [List.dropWhile_append_of_pos]
  · rw [List.dropWhile_cons_of_neg (by decide)]
    rfl
  · intro c hc
    rcases hb c hc with rfl | rfl <;> decide

theorem dropWhile_mem {p : Char → Bool} {c : Char} (hc : p c = false) : ∀ {s : Str}, c ∈ s → c ∈ s.dropWhile p
  | d :: s, h => by
    by_cases hd : p d
    · rw [List.dropWhile_cons_of_pos hd]
      rcases List.mem_cons.1 h with rfl | h
      · rw [hc] at hd; cases hd
      · exact dropWhile_mem hc h
    · rw [List.dropWhile_cons_of_neg hd]; exact h

theorem trailTail_not {s : Str} {c : Char} (hc : isSpace c = false) (h : c ∈ s) : trailTail s = false := by
  by_contra h'
  rw [Bool.not_eq_false] at h'
  rw [trailTail_space h' c h] at hc
  cases hc

theorem trailMatch_own {b : Str} (hb : ∀ c ∈ b, c = ' ' ∨ c = '\t') {x : Char} (hx : isSpace x = false) :
    ∀ t : Str, trailMatch (t ++ x :: '\n' :: b) = some (t.length + 1)
  | [] => by
    have h1 : x ≠ '\n' := by rintro rfl; revert hx; decide
    have h2 : trailTail b = true := by
      have : b.dropWhile isBlank = [] := by
        rw [List.dropWhile_eq_nil_iff]
        intro c hc
        rcases hb c hc with rfl | rfl <;> decide
      unfold trailTail
      dsimp only
      split
      · rename_i t' _
        exact absurd (hb '\r' (by simp)) (by decide)
      · simp [this]
    rw [List.nil_append, trailMatch, if_neg (by simp [h1]), trailMatch, if_pos ⟨rfl, h2⟩]
    rfl
  | c :: t => by
    rw [List.cons_append, trailMatch, if_neg, trailMatch_own hb hx t]
    · rfl
    · rintro ⟨_, h⟩
      rw [trailTail_not hx (by simp)] at h
      cases h

theorem strip_ne_nil {s : Str} {c : Char} (hc : isSpace c = false) (h : c ∈ s) : strip s ≠ [] := fun h' => by
  rw [strip_nil h' c h] at hc
  cases hc

/-- A statement on a line of its own leaves no trace of the line. -/
theorem trimLex_own {t u b b' st : Str} {p : Pos} {x y : Char} (hst : isStatement st) (hb : ∀ c ∈ b, c = ' ' ∨ c = '\t')
    (hb' : ∀ c ∈ b', c = ' ' ∨ c = '\t') (hx : isSpace x = false) (hy : y ∈ u) (hy' : isSpace y = false) :
    trimLex [.text (t ++ x :: '\n' :: b), .code st p, .text (b' ++ '\n' :: u)] =
      [.text (t ++ [x, '\n']), .code st p, .text u] := by
  have h1 : t ++ x :: '\n' :: b ≠ [] := by simp
  have h2 : strip (t ++ x :: '\n' :: b) ≠ [] := strip_ne_nil hx (by simp)
  have h3 : b' ++ '\n' :: u ≠ [] := by simp
  have h4 : strip (b' ++ '\n' :: u) ≠ [] := strip_ne_nil hy' (by simp [hy])
  have h5 : (t ++ x :: '\n' :: b).take (t.length + 1 + 1) = t ++ [x, '\n'] := by
    rw [show t.length + 1 + 1 = (t ++ [x, '\n']).length by simp,
      show t ++ x :: '\n' :: b = (t ++ [x, '\n']) ++ b by simp, List.take_left]
  have h6 := trailMatch_own hb hx t
  have h7 := leadMatch_own (u := u) hb'
  have e : trimStep ⟨[.text (t ++ x :: '\n' :: b), .code st p, .text (b' ++ '\n' :: u)], none⟩ 1 =
      ⟨[.text (t ++ [x, '\n']), .code st p, .text u], some 1⟩ := by
    simp [trimStep, hst, h1, h2, h3, h4, h6, h7, h5]
  show (trimStep (trimStep (trimStep ⟨_, none⟩ 0) 1) 2).tokens = _
  have e0 : trimStep ⟨[.text (t ++ x :: '\n' :: b), .code st p, .text (b' ++ '\n' :: u)], none⟩ 0 =
    ⟨[.text (t ++ x :: '\n' :: b), .code st p, .text (b' ++ '\n' :: u)], none⟩ := rfl
  rw [e0, e]
  rfl

end Interp.Tempita
