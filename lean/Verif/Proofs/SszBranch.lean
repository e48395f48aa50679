import Verif.Proofs.Ssz

/-! # Branches -/

namespace Verif.Ssz

open Json Spec

variable {H : Hash}

theorem climb_append (bs cs : List Node) (index : Nat) (node : Node) :
    climb H index node (bs ++ cs) = climb H (index / 2 ^ bs.length) (climb H index node bs) cs := by
  induction bs generalizing index node with
  | nil => simp [climb]
  | cons b bs ih =>
    simp only [List.cons_append, climb, ih, List.length_cons]
    rw [Nat.div_div_eq_div_mul, Nat.pow_succ, Nat.mul_comm 2]

theorem branchHashes_append (bs cs : List Node) (index : Nat) (node : Node) (p : Node × Node) :
    BranchHashes H index node (bs ++ cs) p ↔ BranchHashes H index node bs p ∨
      BranchHashes H (index / 2 ^ bs.length) (climb H index node bs) cs p := by
  induction bs generalizing index node with
  | nil => simp [climb, BranchHashes]
  | cons b bs ih =>
    simp only [List.cons_append, climb, BranchHashes, ih, List.length_cons, or_assoc]
    rw [Nat.div_div_eq_div_mul, Nat.pow_succ, Nat.mul_comm 2]

theorem getD_take {xs : List Node} {i n : Nat} (h : i < n) :
    (xs.take n).getD i zeroNode = xs.getD i zeroNode := by
  simp [List.getD_eq_getElem?_getD, h]

theorem getD_drop (xs : List Node) (i n : Nat) :
    (xs.drop n).getD i zeroNode = xs.getD (n + i) zeroNode := by
  simp [List.getD_eq_getElem?_getD, List.getElem?_drop]

theorem mod_pow_succ_lo {i d : Nat} (h : i / 2 ^ d % 2 = 0) : i % 2 ^ (d + 1) = i % 2 ^ d := by
  rw [Nat.mod_pow_succ, h]; simp

theorem mod_pow_succ_hi {i d : Nat} (h : i / 2 ^ d % 2 = 1) :
    i % 2 ^ (d + 1) = 2 ^ d + i % 2 ^ d := by
  rw [Nat.mod_pow_succ, h]; omega

/-- A branch that leads to the root of a tree starts at the leaf of the tree. -/
theorem climb_sound : ∀ {d : Nat} {xs branch : List Node} {index : Nat} {leaf : Node},
    branch.length = d → climb H index leaf branch = merkleize H d xs →
    ¬ Collision H (BranchHashes H index leaf branch) (MerkleHashes H d xs) →
    leaf = xs.getD (index % 2 ^ d) zeroNode
  | 0, xs, branch, index, leaf, hl, h, _ => by
    have := List.eq_nil_of_length_eq_zero hl
    subst this
    simpa [climb, merkleize, List.headD_eq_head?_getD, List.getD_eq_getElem?_getD,
      List.head?_eq_getElem?, Nat.mod_one] using h
  | d + 1, xs, branch, index, leaf, hl, h, hc => by
    obtain ⟨bs, b, rfl⟩ : ∃ bs b, branch = bs ++ [b] := by
      rcases List.eq_nil_or_concat branch with rfl | ⟨bs, b, rfl⟩
      · simp at hl
      · exact ⟨bs, b, by simp⟩
    have hb : bs.length = d := by simpa using hl
    rw [climb_append, hb] at h
    by_cases hbit : index / 2 ^ d % 2 = 1
    · simp only [climb, if_pos hbit, merkleize_succ] at h
      have he : (b, climb H index leaf bs) =
          (merkleize H d (xs.take (2 ^ d)), merkleize H d (xs.drop (2 ^ d))) := by
        by_contra hne
        refine hc ⟨_, _, (branchHashes_append _ _ _ _ _).2 (Or.inr ?_), Or.inl rfl, hne, h⟩
        simp [BranchHashes, hb, hbit]
      rw [Prod.mk.injEq] at he
      rw [climb_sound hb he.2 fun h => hc (h.mono
          (fun p hp => (branchHashes_append _ _ _ _ _).2 (Or.inl hp)) fun _ hq => Or.inr (Or.inr hq)),
        getD_drop, mod_pow_succ_hi hbit]
    · have hbit' : index / 2 ^ d % 2 = 0 := by omega
      simp only [climb, if_neg hbit, merkleize_succ] at h
      have he : (climb H index leaf bs, b) =
          (merkleize H d (xs.take (2 ^ d)), merkleize H d (xs.drop (2 ^ d))) := by
        by_contra hne
        refine hc ⟨_, _, (branchHashes_append _ _ _ _ _).2 (Or.inr ?_), Or.inl rfl, hne, h⟩
        simp [BranchHashes, hb, hbit']
      rw [Prod.mk.injEq] at he
      rw [climb_sound hb he.1 fun h => hc (h.mono
          (fun p hp => (branchHashes_append _ _ _ _ _).2 (Or.inl hp)) fun _ hq => Or.inr (Or.inl hq)),
        getD_take (Nat.mod_lt _ (by positivity)), mod_pow_succ_lo hbit']

/-- Every leaf of a tree has a branch. -/
theorem climb_complete : ∀ (d : Nat) (xs : List Node) (index : Nat), ∃ branch : List Node,
    branch.length = d ∧
      climb H index (xs.getD (index % 2 ^ d) zeroNode) branch = merkleize H d xs
  | 0, xs, index => ⟨[], rfl, by
      simp [climb, merkleize, List.headD_eq_head?_getD, List.getD_eq_getElem?_getD,
        List.head?_eq_getElem?, Nat.mod_one]⟩
  | d + 1, xs, index => by
    by_cases hbit : index / 2 ^ d % 2 = 1
    · obtain ⟨bs, hb, h⟩ := climb_complete d (xs.drop (2 ^ d)) index
      refine ⟨bs ++ [merkleize H d (xs.take (2 ^ d))], by simp [hb], ?_⟩
      rw [climb_append, hb, mod_pow_succ_hi hbit, ← getD_drop, h]
      simp [climb, hbit, merkleize_succ]
    · have hbit' : index / 2 ^ d % 2 = 0 := by omega
      obtain ⟨bs, hb, h⟩ := climb_complete d (xs.take (2 ^ d)) index
      refine ⟨bs ++ [merkleize H d (xs.drop (2 ^ d))], by simp [hb], ?_⟩
      rw [climb_append, hb, mod_pow_succ_lo hbit',
        ← getD_take (xs := xs) (Nat.mod_lt index (Nat.two_pow_pos d)), h]
      simp [climb, hbit', merkleize_succ]

/-! ## Paths -/

/-- Depth and position of the end of a path -/
def pathPos : List PathElement → Schema → Option (Nat × Nat)
  | [], _ => some (0, 0)
  | e :: path, s =>
    match step e s with
    | some (d, i, t) => (pathPos path t).map fun p => (p.1 + d, i * 2 ^ p.1 + p.2)
    | none => none

theorem generalizedIndexFrom_eq : ∀ (path : List PathElement) (g : Nat) (s : Schema),
    generalizedIndexFrom g path s = (pathPos path s).map fun p => g * 2 ^ p.1 + p.2
  | [], g, s => by simp [generalizedIndexFrom, pathPos]
  | e :: path, g, s => by
    cases h : step e s with
    | none => simp [generalizedIndexFrom, pathPos, h]
    | some q =>
      simp only [generalizedIndexFrom, pathPos, h, generalizedIndexFrom_eq path, Option.map_map]
      congr 1
      funext p
      simp only [Function.comp, Nat.pow_add]; ring

theorem position_lt {name : String} {fs : Fields} {i : Nat} {s : Schema}
    (h : Fields.position name fs = some (i, s)) : i < Fields.count fs := by
  induction i generalizing fs with
  | zero => cases fs with
    | nil => simp [Fields.position] at h
    | cons n t rest => simp [Fields.count]
  | succ i ih => cases fs with
    | nil => simp [Fields.position] at h
    | cons n t rest =>
      simp only [Fields.position] at h
      split at h
      · simp at h
      · simp only [Option.map_eq_some_iff] at h
        obtain ⟨q, hq, he⟩ := h
        obtain ⟨rfl, rfl⟩ : q.1 = i ∧ q.2 = s := by simpa using he
        have := ih hq
        simp [Fields.count]; omega

theorem fieldAt_position {H : Hash} {name : String} : {fs : Fields} → {i : Nat} → {s : Schema} →
    Fields.position name fs = some (i, s) → (v : fs.Val) →
    ∃ x : s.Val, fieldAt name fs v = some ⟨s, x⟩ ∧
      (roots H fs v).getD i zeroNode = root H s x ∧
      ∀ p, Hashes H s x p → FieldHashes H fs v p
  | .nil, _, _, h, _ => by simp [Fields.position] at h
  | .cons n t rest, i, s, h, v => by
    simp only [Fields.position] at h
    split at h
    · rename_i hn
      simp only [Option.some.injEq, Prod.mk.injEq] at h
      obtain ⟨rfl, rfl⟩ := h
      exact ⟨v.1, by simp [fieldAt, hn], by simp [roots], fun p hp => Or.inl hp⟩
    · rename_i hn
      simp only [Option.map_eq_some_iff] at h
      obtain ⟨q, hq, he⟩ := h
      obtain ⟨rfl, rfl⟩ : q.1 + 1 = i ∧ q.2 = s := by simpa using he
      obtain ⟨x, h1, h2, h3⟩ := fieldAt_position hq v.2
      exact ⟨x, by simpa [fieldAt, hn] using h1, by simpa [roots] using h2,
        fun p hp => Or.inr (h3 p hp)⟩

theorem step_lt {e : PathElement} {s t : Schema} {d i : Nat} (h : step e s = some (d, i, t)) :
    i < 2 ^ d := by
  unfold step at h
  split at h
  · simp only [Option.map_eq_some_iff, Prod.mk.injEq] at h
    obtain ⟨q, hq, rfl, rfl, rfl⟩ := h
    exact lt_of_lt_of_le (position_lt hq) (le_depth _)
  · split at h
    · rename_i n _ hi
      simp only [Option.some.injEq, Prod.mk.injEq] at h
      obtain ⟨rfl, rfl, rfl⟩ := h
      exact lt_of_lt_of_le hi (le_depth _)
    · simp at h
  · split at h
    · rename_i n _ hi
      simp only [Option.some.injEq, Prod.mk.injEq] at h
      obtain ⟨rfl, rfl, rfl⟩ := h
      have := le_depth n
      rw [Nat.pow_succ]
      omega
    · simp at h
  · simp at h

theorem pathPos_lt : ∀ {path : List PathElement} {s : Schema} {p : Nat × Nat},
    pathPos path s = some p → p.2 < 2 ^ p.1
  | [], s, p, h => by simp [pathPos] at h; subst h; simp
  | e :: path, s, p, h => by
    cases hs : step e s with
    | none => simp [pathPos, hs] at h
    | some q =>
      obtain ⟨d, i, t⟩ := q
      simp only [pathPos, hs, Option.map_eq_some_iff] at h
      obtain ⟨r, hr, rfl⟩ := h
      have h1 := pathPos_lt hr
      have h2 : (i + 1) * 2 ^ r.1 ≤ 2 ^ d * 2 ^ r.1 := Nat.mul_le_mul_right _ (step_lt hs)
      simp only
      rw [Nat.pow_add, Nat.mul_comm (2 ^ r.1)]
      rw [Nat.add_mul] at h2
      omega

/-- The index of the end of a path in its subtree, and the depth of the subtree -/
theorem generalized_index_eq {s : Schema} {path : List PathElement} {g : Nat}
    (h : generalized_index s path = some g) :
    pathPos path s = some (Nat.log2 g, get_subtree_index g) := by
  unfold generalized_index at h
  rw [generalizedIndexFrom_eq, Option.map_eq_some_iff] at h
  obtain ⟨p, hp, rfl⟩ := h
  have hlt := pathPos_lt hp
  have hlog : Nat.log2 (1 * 2 ^ p.1 + p.2) = p.1 := by
    rw [Nat.log2_eq_iff (by have := Nat.two_pow_pos p.1; omega)]
    rw [Nat.pow_succ]
    omega
  unfold get_subtree_index
  rw [hlog, hp]
  congr
  rw [Nat.one_mul, Nat.add_mod_left, Nat.mod_eq_of_lt hlt]

/-- One step: a branch through the tree of a value leads to the root of a part of it, or else to a leaf
of zeros beyond the end of a list. -/
theorem step_sound {e : PathElement} {s t : Schema} {d i : Nat} (h : step e s = some (d, i, t))
    (v : s.Val) {index : Nat} {branch : List Node} {leaf : Node} (hl : branch.length = d)
    (hi : index % 2 ^ d = i) (hr : climb H index leaf branch = root H s v)
    (hc : ¬ Collision H (BranchHashes H index leaf branch) (Hashes H s v)) :
    (∃ x : t.Val, (∀ path, valueAt (e :: path) s v = valueAt path t x) ∧ leaf = root H t x ∧
      ∀ p, Hashes H t x p → Hashes H s v p) ∨
    ((∀ path, valueAt (e :: path) s v = none) ∧ leaf = zeroNode) := by
  unfold step at h
  split at h
  · rename_i name fs
    simp only [Option.map_eq_some_iff, Prod.mk.injEq] at h
    obtain ⟨q, hq, rfl, rfl, rfl⟩ := h
    obtain ⟨x, h1, h2, h3⟩ := fieldAt_position (H := H) hq v
    left
    refine ⟨x, fun path => by simp [valueAt, h1], ?_, fun p hp => Or.inr (h3 p hp)⟩
    have := climb_sound hl hr fun h => hc (h.mono (fun _ h => h) fun _ h => Or.inl h)
    rw [this, hi, h2]
  · rename_i j n t'
    split at h
    · simp only [Option.some.injEq, Prod.mk.injEq] at h
      obtain ⟨rfl, rfl, rfl⟩ := h
      have := climb_sound hl hr fun h => hc (h.mono (fun _ h => h) fun _ h => Or.inl h)
      rw [hi] at this
      rename_i hj
      have hlen : j < v.val.length := by
        have := v.2; simp only [Len.ok, beq_iff_eq] at this; omega
      left
      refine ⟨v.val[j], fun path => by simp [valueAt, hlen], ?_,
        fun p hp => Or.inr ⟨_, List.getElem_mem hlen, hp⟩⟩
      rw [this]
      simp [List.getD_eq_getElem?_getD, hlen]
    · simp at h
  · rename_i j n t'
    split at h
    · simp only [Option.some.injEq, Prod.mk.injEq] at h
      obtain ⟨rfl, rfl, rfl⟩ := h
      rename_i hj
      obtain ⟨bs, b, rfl⟩ : ∃ bs b, branch = bs ++ [b] := by
        rcases List.eq_nil_or_concat branch with rfl | ⟨bs, b, rfl⟩
        · simp at hl
        · exact ⟨bs, b, by simp⟩
      have hb : bs.length = depth n := by simpa using hl
      have hjd : j < 2 ^ depth n := lt_of_lt_of_le hj (le_depth n)
      have hbit : index / 2 ^ depth n % 2 = 0 := by
        rw [Nat.mod_pow_succ] at hi
        rcases Nat.mod_two_eq_zero_or_one (index / 2 ^ depth n) with h | h
        · exact h
        · rw [h] at hi; omega
      rw [mod_pow_succ_lo hbit] at hi
      rw [climb_append, hb] at hr
      simp only [climb, hbit, root, collection, mixInLength] at hr
      have he : (climb H index leaf bs, b) =
          (merkleize H (depth (id n)) (v.val.map fun x => root H t' x), leBytes 32 v.val.length) := by
        by_contra hne
        refine hc ⟨_, _, (branchHashes_append _ _ _ _ _).2 (Or.inr ?_), Or.inl (Or.inl rfl), hne, by
          simpa using hr⟩
        simp [BranchHashes, hb, hbit]
      rw [Prod.mk.injEq] at he
      have := climb_sound hb he.1 fun h => hc (h.mono
        (fun p hp => (branchHashes_append _ _ _ _ _).2 (Or.inl hp)) fun _ hq => Or.inl (Or.inr hq))
      rw [hi] at this
      by_cases hlen : j < v.val.length
      · left
        refine ⟨v.val[j], fun path => by simp [valueAt, hlen], ?_,
          fun p hp => Or.inr ⟨_, List.getElem_mem hlen, hp⟩⟩
        rw [this]
        simp [List.getD_eq_getElem?_getD, hlen]
      · right
        refine ⟨fun path => by simp [valueAt, hlen], ?_⟩
        rw [this]
        simp [List.getD_eq_getElem?_getD, hlen]
    · simp at h
  · simp at h

theorem climb_zero {index : Nat} {leaf : Node} {branch : List Node}
    (h : climb H index leaf branch = zeroNode) :
    leaf = zeroNode ∨ HashesToZero H (BranchHashes H index leaf branch) := by
  rcases List.eq_nil_or_concat branch with rfl | ⟨bs, b, rfl⟩
  · exact Or.inl h
  · right
    rw [List.concat_eq_append, climb_append] at h
    rw [List.concat_eq_append]
    refine ⟨_, (branchHashes_append _ _ _ _ _).2 (Or.inr (Or.inl rfl)), ?_⟩
    simp only [climb] at h
    split
    · rename_i hb; rwa [if_pos hb] at h
    · rename_i hb; rwa [if_neg hb] at h

/-- A branch that leads to the root of a value starts at the root of a part of it. -/
theorem path_sound : ∀ {path : List PathElement} {s : Schema} {k j : Nat},
    pathPos path s = some (k, j) → ∀ (v : s.Val) {index : Nat} {branch : List Node} {leaf : Node},
    branch.length = k → index % 2 ^ k = j → climb H index leaf branch = root H s v →
    ¬ Collision H (BranchHashes H index leaf branch) (Hashes H s v) →
    (∃ x, valueAt path s v = some x ∧ typeAt path s = some x.1 ∧ leaf = root H x.1 x.2 ∧
      ∀ p, Hashes H x.1 x.2 p → Hashes H s v p) ∨
    (valueAt path s v = none ∧
      (leaf = zeroNode ∨ HashesToZero H (BranchHashes H index leaf branch)))
  | [], s, k, j, h, v, index, branch, leaf, hl, hi, hr, hc => by
    simp only [pathPos, Option.some.injEq, Prod.mk.injEq] at h
    obtain ⟨rfl, rfl⟩ := h
    have := List.eq_nil_of_length_eq_zero hl
    subst this
    exact Or.inl ⟨⟨s, v⟩, rfl, rfl, hr, fun _ h => h⟩
  | e :: path, s, k, j, h, v, index, branch, leaf, hl, hi, hr, hc => by
    cases hs : step e s with
    | none => simp [pathPos, hs] at h
    | some q =>
      obtain ⟨d, i, t⟩ := q
      simp only [pathPos, hs, Option.map_eq_some_iff, Prod.mk.injEq] at h
      obtain ⟨⟨k', j'⟩, hr', rfl, rfl⟩ := h
      have hlt := pathPos_lt hr'
      simp only at hlt hl hi
      rw [← List.take_append_drop k' branch] at hr hc
      have hlen : (branch.take k').length = k' := by simp; omega
      rw [climb_append, hlen] at hr
      have hc1 : ¬ Collision H (BranchHashes H index leaf (branch.take k')) (Hashes H s v) :=
        fun h => hc (h.mono (fun p hp => (branchHashes_append _ _ _ _ _).2 (Or.inl hp)) fun _ h => h)
      have hc2 : ¬ Collision H (BranchHashes H (index / 2 ^ k')
          (climb H index leaf (branch.take k')) (branch.drop k')) (Hashes H s v) :=
        fun h => hc (h.mono (fun p hp => (branchHashes_append _ _ _ _ _).2 (Or.inr (by
          rw [hlen]; exact hp))) fun _ h => h)
      have hi1 : index / 2 ^ k' % 2 ^ d = i := by
        have : index / 2 ^ k' % 2 ^ d = index % 2 ^ (k' + d) / 2 ^ k' := by
          rw [Nat.pow_add, Nat.mod_mul_right_div_self]
        rw [this, hi, Nat.mul_comm, Nat.mul_add_div (Nat.two_pow_pos k'), Nat.div_eq_of_lt hlt]
        simp
      have hi2 : index % 2 ^ k' = j' := by
        have : index % 2 ^ k' = index % 2 ^ (k' + d) % 2 ^ k' := by
          rw [Nat.mod_mod_of_dvd _ (Nat.pow_dvd_pow 2 (by omega))]
        rw [this, hi, Nat.mul_comm, Nat.mul_add_mod, Nat.mod_eq_of_lt hlt]
      rcases step_sound hs v (by simp; omega) hi1 hr hc2 with ⟨x, h1, h2, h3⟩ | ⟨h1, h2⟩
      · rw [h1]
        have := path_sound hr' x hlen hi2 h2 fun h => hc1 (h.mono (fun _ h => h) h3)
        rcases this with ⟨y, h4, ht, h5, h6⟩ | ⟨h4, h5⟩
        · exact Or.inl ⟨y, h4, by simp [typeAt, hs, ht], h5, fun p hp => h3 p (h6 p hp)⟩
        · refine Or.inr ⟨h4, h5.imp_right fun ⟨p, hp, hz⟩ => ⟨p, ?_, hz⟩⟩
          rw [← List.take_append_drop k' branch]
          exact (branchHashes_append _ _ _ _ _).2 (Or.inl hp)
      · rw [h1]
        refine Or.inr ⟨rfl, (climb_zero h2).imp_right fun ⟨p, hp, hz⟩ => ⟨p, ?_, hz⟩⟩
        rw [← List.take_append_drop k' branch]
        exact (branchHashes_append _ _ _ _ _).2 (Or.inl hp)

/-- A branch from the root of a value to the root of another one: the first is part of the other. -/
theorem member_sound {s t : Schema} {path : List PathElement} {g : Nat}
    (hg : generalized_index s path = some g) (ht : typeAt path s = some t) (hs : Sszable t = true)
    (v : s.Val) (x : t.Val) {branch : List Node}
    (h : is_valid_merkle_branch H (root H t x) branch (Nat.log2 g) (get_subtree_index g)
      (root H s v) = true) :
    valueAt path s v = some ⟨t, x⟩ ∨
    Collision H (Either (BranchHashes H (get_subtree_index g) (root H t x) branch) (Hashes H t x))
      (Hashes H s v) ∨
    root H t x = zeroNode ∨
    HashesToZero H (BranchHashes H (get_subtree_index g) (root H t x) branch) := by
  by_contra hno
  simp only [not_or] at hno
  obtain ⟨h1, h2, h3, h4⟩ := hno
  simp only [is_valid_merkle_branch, Bool.and_eq_true, beq_iff_eq] at h
  have hp := generalized_index_eq hg
  rcases path_sound hp v h.1 (Nat.mod_eq_of_lt (pathPos_lt hp)) h.2
    (fun h => h2 (h.mono (fun _ => Or.inl) fun _ h => h)) with ⟨⟨t', y⟩, a, b, c, d⟩ | ⟨_, a | a⟩
  · rw [ht, Option.some.injEq] at b
    subst b
    have := root_inj t hs x y c fun h => h2 (h.mono (fun _ => Or.inr) d)
    subst this
    exact h1 a
  · exact h3 a
  · exact h4 a

/-- One step: every part of a value has a branch. -/
theorem step_complete {e : PathElement} {s t : Schema} {d i : Nat} (h : step e s = some (d, i, t))
    (v : s.Val) {index : Nat} (hi : index % 2 ^ d = i) :
    (∃ x : t.Val, (∀ path, valueAt (e :: path) s v = valueAt path t x) ∧ ∃ branch : List Node,
      branch.length = d ∧ climb H index (root H t x) branch = root H s v) ∨
    ∀ path, valueAt (e :: path) s v = none := by
  unfold step at h
  split at h
  · rename_i name fs
    simp only [Option.map_eq_some_iff, Prod.mk.injEq] at h
    obtain ⟨q, hq, rfl, rfl, rfl⟩ := h
    obtain ⟨x, h1, h2, _⟩ := fieldAt_position (H := H) hq v
    left
    obtain ⟨branch, hb, hr⟩ := climb_complete (H := H) (depth (Fields.count fs)) (roots H fs v) index
    rw [hi, h2] at hr
    exact ⟨x, fun path => by simp [valueAt, h1], branch, hb, by rw [hr]; rfl⟩
  · rename_i j n t'
    split at h
    · simp only [Option.some.injEq, Prod.mk.injEq] at h
      obtain ⟨rfl, rfl, rfl⟩ := h
      rename_i hj
      have hlen : j < v.val.length := by
        have := v.2; simp only [Len.ok, beq_iff_eq] at this; omega
      left
      obtain ⟨branch, hb, hr⟩ := climb_complete (H := H) (depth n)
        (v.val.map fun x => root H t' x) index
      rw [hi] at hr
      refine ⟨v.val[j], fun path => by simp [valueAt, hlen], branch, hb, ?_⟩
      simpa [List.getD_eq_getElem?_getD, hlen, root, collection] using hr
    · simp at h
  · rename_i j n t'
    split at h
    · simp only [Option.some.injEq, Prod.mk.injEq] at h
      obtain ⟨rfl, rfl, rfl⟩ := h
      rename_i hj
      by_cases hlen : j < v.val.length
      · left
        have hjd : j < 2 ^ depth n := lt_of_lt_of_le hj (le_depth n)
        have hbit : index / 2 ^ depth n % 2 = 0 := by
          rw [Nat.mod_pow_succ] at hi
          rcases Nat.mod_two_eq_zero_or_one (index / 2 ^ depth n) with h | h
          · exact h
          · rw [h] at hi; omega
        rw [mod_pow_succ_lo hbit] at hi
        obtain ⟨branch, hb, hr⟩ := climb_complete (H := H) (depth n)
          (v.val.map fun x => root H t' x) index
        rw [hi] at hr
        refine ⟨v.val[j], fun path => by simp [valueAt, hlen],
          branch ++ [leBytes 32 v.val.length], by simp [hb], ?_⟩
        rw [climb_append, hb]
        have : climb H index (root H t' v.val[j]) branch =
            merkleize H (depth n) (v.val.map fun x => root H t' x) := by
          simpa [List.getD_eq_getElem?_getD, hlen] using hr
        rw [this]
        simp [climb, hbit, root, collection, mixInLength]
      · exact Or.inr fun path => by simp [valueAt, hlen]
    · simp at h
  · simp at h

/-- Every part of a value has a branch. -/
theorem path_complete : ∀ {path : List PathElement} {s : Schema} {k j : Nat},
    pathPos path s = some (k, j) → ∀ (v : s.Val) {x : (s : Schema) × s.Val},
    valueAt path s v = some x → ∀ {index : Nat}, index % 2 ^ k = j → ∃ branch : List Node,
      branch.length = k ∧ climb H index (root H x.1 x.2) branch = root H s v
  | [], s, k, j, h, v, x, hx, index, hi => by
    simp only [pathPos, Option.some.injEq, Prod.mk.injEq] at h
    obtain ⟨rfl, rfl⟩ := h
    simp only [valueAt, Option.some.injEq] at hx
    subst hx
    exact ⟨[], rfl, rfl⟩
  | e :: path, s, k, j, h, v, x, hx, index, hi => by
    cases hs : step e s with
    | none => simp [pathPos, hs] at h
    | some q =>
      obtain ⟨d, i, t⟩ := q
      simp only [pathPos, hs, Option.map_eq_some_iff, Prod.mk.injEq] at h
      obtain ⟨⟨k', j'⟩, hr', rfl, rfl⟩ := h
      have hlt := pathPos_lt hr'
      simp only at hlt hi
      have hi1 : index / 2 ^ k' % 2 ^ d = i := by
        have : index / 2 ^ k' % 2 ^ d = index % 2 ^ (k' + d) / 2 ^ k' := by
          rw [Nat.pow_add, Nat.mod_mul_right_div_self]
        rw [this, hi, Nat.mul_comm, Nat.mul_add_div (Nat.two_pow_pos k'), Nat.div_eq_of_lt hlt]
        simp
      have hi2 : index % 2 ^ k' = j' := by
        have : index % 2 ^ k' = index % 2 ^ (k' + d) % 2 ^ k' := by
          rw [Nat.mod_mod_of_dvd _ (Nat.pow_dvd_pow 2 (by omega))]
        rw [this, hi, Nat.mul_comm, Nat.mul_add_mod, Nat.mod_eq_of_lt hlt]
      rcases step_complete (H := H) hs v hi1 with ⟨y, h1, bs, h2, h3⟩ | h1
      · rw [h1] at hx
        obtain ⟨cs, h4, h5⟩ := path_complete hr' y hx hi2
        refine ⟨cs ++ bs, by simp [h2, h4], ?_⟩
        rw [climb_append, h4, h5, h3]
      · rw [h1] at hx; simp at hx

theorem member_complete {s : Schema} {path : List PathElement} {g : Nat}
    (hg : generalized_index s path = some g) (v : s.Val) {x : (s : Schema) × s.Val}
    (hx : valueAt path s v = some x) : ∃ branch : List Node,
    is_valid_merkle_branch H (root H x.1 x.2) branch (Nat.log2 g) (get_subtree_index g)
      (root H s v) = true := by
  have hp := generalized_index_eq hg
  obtain ⟨bs, h1, h2⟩ := path_complete (H := H) hp v hx (Nat.mod_eq_of_lt (pathPos_lt hp))
  exact ⟨bs, by simp [is_valid_merkle_branch, h1, h2]⟩

end Verif.Ssz
