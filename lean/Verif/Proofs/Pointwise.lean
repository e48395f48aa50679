import Verif.Proofs.Wp

namespace Verif

/-- An invariant of a loop that succeeds. -/
theorem forEach_ok {α : Type} {body : α → M Unit} (I : List α → State → Prop) {xs : List α}
    {s s' : State} (step : ∀ x rest t t', I (x :: rest) t → body x t = .ok () t' → I rest t')
    (h : I xs s) (hr : forEach xs body s = .ok () s') : I [] s' := by
  induction xs generalizing s with
  | nil => cases hr; exact h
  | cons x xs ih =>
    simp only [forEach, run] at hr
    obtain ⟨t, h1, h2⟩ := hr
    exact ih (step x xs s t h h1) h2

/-- A loop over distinct indices in which each iteration writes at most its own entry of a list. -/
theorem forEach_pointwise {γ : Type} {get : State → List γ} {put : State → List γ → State}
    (hpg : ∀ s, put s (get s) = s) {P : Nat → Option γ → Prop} {xs : List Nat}
    {body : Nat → M Unit} {s s' : State} (hn : xs.Nodup)
    (step : ∀ i ∈ xs, ∀ l t', l.length = (get s).length → l[i]? = (get s)[i]? →
      body i (put s l) = .ok () t' →
      ∃ m, t' = put s m ∧ m.length = l.length ∧ (∀ j, j ≠ i → m[j]? = l[j]?) ∧ P i m[i]?)
    (h : forEach xs body s = .ok () s') :
    ∃ m, s' = put s m ∧ m.length = (get s).length ∧ (∀ i ∈ xs, P i m[i]?) ∧
      ∀ i, i ∉ xs → m[i]? = (get s)[i]? := by
  have key := forEach_ok (body := body)
    (fun rest t => (∃ before, before ++ rest = xs ∧ ∃ m, t = put s m ∧
      m.length = (get s).length ∧ (∀ i ∈ before, P i m[i]?) ∧
      ∀ i, i ∉ before → m[i]? = (get s)[i]?))
    (by
      rintro x rest t t' ⟨before, hb, m, rfl, h1, h2, h3⟩ ht
      have hx : x ∉ before := by
        intro hx
        rw [← hb, List.nodup_append] at hn
        exact hn.2.2 x hx x (by simp) rfl
      obtain ⟨m', e1, e2, e3, e4⟩ := step x (by rw [← hb]; simp) m t' h1 (h3 x hx) ht
      refine ⟨before ++ [x], by simpa using hb, m', e1, e2.trans h1, ?_, ?_⟩
      · intro i hi
        rw [List.mem_append, List.mem_singleton] at hi
        rcases hi with hi | rfl
        · rw [e3 i (by rintro rfl; exact hx hi)]; exact h2 i hi
        · exact e4
      · intro i hi
        rw [List.mem_append, List.mem_singleton, not_or] at hi
        rw [e3 i hi.2]; exact h3 i hi.1)
    ⟨[], rfl, get s, (hpg s).symm, rfl, by simp, fun _ _ => rfl⟩ h
  obtain ⟨before, hb, m, e1, e2, e3, e4⟩ := key
  rw [List.append_nil] at hb
  subst hb
  exact ⟨m, e1, e2, e3, e4⟩

end Verif
