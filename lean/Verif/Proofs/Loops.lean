import Verif.Model.Arrays
import Verif.Proofs.ExceptLemmas

/-! More lemmas on `pyFor`. -/

namespace Interp

theorem bind_ok_elim {α β : Type} {m : Py α} {f : α → Py β} {b : β} (h : m >>= f = .ok b) :
    ∃ a, m = .ok a ∧ f a = .ok b := by
  cases m with
  | error e => simp at h
  | ok a => exact ⟨a, rfl, by simpa using h⟩

/-- If a loop ends normally, so did every pass. -/
theorem pyFor_ok_elim {α S : Type} (f : α → S → Py S) : ∀ (l : List α) {s s' : S},
    pyFor l f s = .ok s' → ∀ a ∈ l, ∃ s1 s2, f a s1 = .ok s2
  | [], s, s', _, a, ha => by simp at ha
  | b :: l, s, s', h, a, ha => by
    have h' : f b s >>= (fun t => pyFor l f t) = .ok s' := h
    obtain ⟨t, h1, h2⟩ := bind_ok_elim h'
    rcases List.mem_cons.mp ha with rfl | ha
    · exact ⟨s, t, h1⟩
    · exact pyFor_ok_elim f l h2 a ha

/-- A loop whose passes agree on the states satisfying an invariant. -/
theorem pyFor_congr_inv {α S : Type} (P : S → Prop) (f g : α → S → Py S) : ∀ (l : List α) (s : S),
    P s → (∀ a ∈ l, ∀ s, P s → f a s = g a s) → (∀ a ∈ l, ∀ s s', P s → g a s = .ok s' → P s') →
    pyFor l f s = pyFor l g s
  | [], _, _, _, _ => rfl
  | a :: l, s, hs, h, hp => by
    show f a s >>= (fun t => pyFor l f t) = g a s >>= (fun t => pyFor l g t)
    rw [h a (by simp) s hs]
    cases e : g a s with
    | error _ => rfl
    | ok t =>
      exact pyFor_congr_inv P f g l t (hp a (by simp) s t hs e)
        (fun b hb => h b (by simp [hb])) (fun b hb => hp b (by simp [hb]))

theorem pyFor_congr {α S : Type} (f g : α → S → Py S) (l : List α) (s : S)
    (h : ∀ a ∈ l, ∀ s, f a s = g a s) : pyFor l f s = pyFor l g s :=
  pyFor_congr_inv (fun _ => True) f g l s trivial (fun a ha s _ => h a ha s) (fun _ _ _ _ _ _ => trivial)

end Interp
