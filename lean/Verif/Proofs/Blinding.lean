import Verif.Proofs.Ssz
import Verif.Spec.Blinding

/-! # Roots of structs from the roots of their fields -/

namespace Verif.Ssz

open Json Spec

/-- All hashes have 32 bytes. -/
theorem asRoot_root (H : Hash) {n : Node} (h : n.length = 32) : root H (.bytes 32) (asRoot n) = n := by
  have hp : pad n = n := by simp [pad, ← h]
  have hne : n ≠ [] := by rintro rfl; cases h
  have h1 : n.take 32 = n := List.take_of_length_le (by omega)
  have h2 : n.drop 32 = [] := List.drop_of_length_le (by omega)
  simp only [root, asRoot, hp]
  rw [chunks_of_ne hne, h1, h2, chunks_nil, hp]
  rfl

theorem roots_members (H : Hash) : (fs : Fields) → (v : fs.Val) →
    roots H fs v = (fieldsOf fs v).map fun m => root H m.2.1 m.2.2
  | .nil, _ => rfl
  | .cons _ s rest, v => by simp only [roots, fieldsOf, List.map_cons, roots_members H rest v.2]

theorem root_of_roots {H : Hash} {s s' : Schema} {v : s.Val} {w : s'.Val}
    {before after : List (String × (s : Schema) × s.Val)} {n n' : String} {t t' : Schema} {x : t.Val}
    {y : t'.Val} (h : members s v = before ++ (n, ⟨t, x⟩) :: after)
    (h' : members s' w = before ++ (n', ⟨t', y⟩) :: after) (hr : root H t x = root H t' y) :
    root H s v = root H s' w := by
  cases s
  case record fs =>
    cases s'
    case record gs =>
      simp only [members] at h h'
      have h1 := roots_members H fs v
      have h2 := roots_members H gs w
      have h3 : roots H fs v = roots H gs w := by rw [h1, h2, h, h']; simp [hr]
      have h4 : Fields.count fs = Fields.count gs := by
        rw [← roots_length fs v (H := H), ← roots_length gs w (H := H), h3]
      simp only [root, h3, h4]
    all_goals simp [members] at h'
  all_goals simp [members] at h

theorem swaps_root {H : Hash} {s s' : Schema} {v : s.Val} {w : s'.Val} {n n' : String}
    {t t' : Schema} {x : t.Val} {y : t'.Val} (h : Swaps s s' v w n t x n' t' y)
    (hr : root H t x = root H t' y) : root H s v = root H s' w := by
  obtain ⟨_, _, h1, h2⟩ := h
  exact root_of_roots h1 h2 hr

/-- The root of a list is a hash. -/
theorem list_root_length {H : Hash} (hH : ∀ a b, (H a b).length = 32) {n : Nat} {s : Schema}
    (v : (Schema.seq (.atMost n) s).Val) : (root H (.seq (.atMost n) s) v).length = 32 := by
  simp only [root, collection, mixInLength]
  exact hH _ _

theorem body_root_length {H : Hash} (hH : ∀ a b, (H a b).length = 32) {fs : Fields}
    (h2 : 2 ≤ Fields.count fs) (v : fs.Val) : (root H (.record fs) v).length = 32 := by
  simp only [root]
  obtain ⟨d, hd⟩ : ∃ d, depth (Fields.count fs) = d + 1 := by
    refine ⟨Nat.log2 (Fields.count fs - 1), ?_⟩
    rw [depth, if_neg (by omega)]
  have hl := roots_length fs v (H := H)
  rw [hd]
  cases hr : roots H fs v with
  | nil => rw [hr] at hl; simp at hl; omega
  | cons x xs => simp only [merkleize]; exact hH _ _

end Verif.Ssz
