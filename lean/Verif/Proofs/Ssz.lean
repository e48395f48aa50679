import Mathlib.Data.Nat.Log
import Mathlib.Tactic.Ring
import Verif.Spec.Ssz
import Verif.Proofs.Json

/-! # Hash tree roots determine the values -/

namespace Verif.Ssz

open Json Spec

variable {H : Hash}

/-! ## Bytes and chunks -/

theorem leBytes_length (w n : Nat) : (leBytes w n).length = w := by
  induction w generalizing n with
  | zero => rfl
  | succ w ih => simp [leBytes, ih]

theorem leBytes_inj {w m n : Nat} (hm : m < 256 ^ w) (hn : n < 256 ^ w)
    (h : leBytes w m = leBytes w n) : m = n := by
  induction w generalizing m n with
  | zero => simp at hm hn; omega
  | succ w ih =>
    simp only [leBytes, List.cons.injEq] at h
    have h1 : m % 256 = n % 256 := by
      have := congrArg UInt8.toNat h.1
      simpa using this
    have h2 := ih (by rw [Nat.pow_succ] at hm; omega) (by rw [Nat.pow_succ] at hn; omega) h.2
    omega

theorem pad_inj {xs ys : List UInt8} (hl : xs.length = ys.length) (h32 : xs.length ≤ 32)
    (h : pad xs = pad ys) : xs = ys := by
  unfold pad at h
  rw [List.take_append, List.take_append, List.take_of_length_le (l := xs) h32,
    List.take_of_length_le (l := ys) (hl ▸ h32)] at h
  exact List.append_inj_left h hl

theorem chunks_nil : chunks [] = [] := by rw [chunks]; rfl

theorem chunks_of_ne {xs : List UInt8} (h : xs ≠ []) :
    chunks xs = pad (xs.take 32) :: chunks (xs.drop 32) := by
  rw [chunks, if_neg (by simpa using h)]

theorem chunks_length (xs : List UInt8) : (chunks xs).length = chunkCount xs.length := by
  induction hn : xs.length using Nat.strongRecOn generalizing xs with
  | _ n ih =>
    by_cases h : xs = []
    · subst h; simp [chunks_nil, chunkCount] at hn ⊢; subst hn; rfl
    · have hp := List.length_pos_iff.2 h
      rw [chunks_of_ne h, List.length_cons, ih (n - 32) (by omega) _ (by simp [hn])]
      unfold chunkCount; omega

theorem chunks_inj {xs ys : List UInt8} (hl : xs.length = ys.length) (h : chunks xs = chunks ys) :
    xs = ys := by
  induction hn : xs.length using Nat.strongRecOn generalizing xs ys with
  | _ n ih =>
    by_cases h0 : xs = []
    · subst h0; symm; apply List.eq_nil_of_length_eq_zero; simpa using hl.symm
    · have hp := List.length_pos_iff.2 h0
      have h1 : ys ≠ [] := by rintro rfl; simp at hl; exact h0 hl
      rw [chunks_of_ne h0, chunks_of_ne h1, List.cons.injEq] at h
      have ha := pad_inj (by simp [hl]) (by simp) h.1
      have hb := ih (n - 32) (by omega) (by simp [hl]) h.2 (by simp [hn])
      rw [← List.take_append_drop 32 xs, ha, hb, List.take_append_drop]

theorem le_depth (n : Nat) : n ≤ 2 ^ depth n := by
  unfold depth
  split
  · simpa
  · have := @Nat.lt_log2_self (n - 1)
    omega

/-! ## Trees -/

theorem merkleize_nil : ∀ d, merkleize H d [] = zeroRoot H d
  | 0 => rfl
  | _ + 1 => rfl

theorem merkleize_succ (d : Nat) (xs : List Node) : merkleize H (d + 1) xs =
    H (merkleize H d (xs.take (2 ^ d))) (merkleize H d (xs.drop (2 ^ d))) := by
  cases xs with
  | nil => simp [merkleize_nil, zeroRoot]
  | cons => rfl

theorem merkleize_inj : ∀ {d : Nat} {xs ys : List Node},
    merkleize H d xs = merkleize H d ys →
    ¬ Collision H (MerkleHashes H d xs) (MerkleHashes H d ys) →
    ∀ i < 2 ^ d, xs.getD i zeroNode = ys.getD i zeroNode
  | 0, xs, ys, h, _, i, hi => by
    have : i = 0 := by simpa using hi
    subst this
    simpa [merkleize, List.headD_eq_head?_getD, List.getD_eq_getElem?_getD,
      List.head?_eq_getElem?] using h
  | d + 1, xs, ys, h, hc, i, hi => by
    rw [merkleize_succ, merkleize_succ] at h
    have he : (merkleize H d (xs.take (2 ^ d)), merkleize H d (xs.drop (2 ^ d))) =
        (merkleize H d (ys.take (2 ^ d)), merkleize H d (ys.drop (2 ^ d))) := by
      by_contra hne
      exact hc ⟨_, _, Or.inl rfl, Or.inl rfl, hne, h⟩
    rw [Prod.mk.injEq] at he
    by_cases hlt : i < 2 ^ d
    · have := merkleize_inj he.1
        (fun ⟨p, q, hp, hq, hne, hh⟩ => hc ⟨p, q, Or.inr (Or.inl hp), Or.inr (Or.inl hq), hne, hh⟩)
        i hlt
      simpa [List.getD_eq_getElem?_getD, List.getElem?_take, hlt] using this
    · have := merkleize_inj he.2
        (fun ⟨p, q, hp, hq, hne, hh⟩ => hc ⟨p, q, Or.inr (Or.inr hp), Or.inr (Or.inr hq), hne, hh⟩)
        (i - 2 ^ d) (by rw [Nat.pow_succ] at hi; omega)
      simp only [List.getD_eq_getElem?_getD, List.getElem?_drop] at this ⊢
      rwa [Nat.add_sub_cancel' (by omega)] at this

theorem merkleize_list_inj {d : Nat} {xs ys : List Node} (hl : xs.length = ys.length)
    (hd : xs.length ≤ 2 ^ d) (h : merkleize H d xs = merkleize H d ys)
    (hc : ¬ Collision H (MerkleHashes H d xs) (MerkleHashes H d ys)) : xs = ys := by
  apply List.ext_getElem hl
  intro i h1 h2
  have := merkleize_inj h hc i (by omega)
  simpa [List.getD_eq_getElem?_getD, h1, h2] using this

theorem _root_.Verif.Spec.Collision.mono {P Q P' Q' : Node × Node → Prop} (hp : ∀ p, P p → P' p)
    (hq : ∀ q, Q q → Q' q) (h : Collision H P Q) : Collision H P' Q' :=
  let ⟨p, q, a, b, c, d⟩ := h
  ⟨p, q, hp p a, hq q b, c, d⟩

/-- A collection is determined by its root up to the chunks. -/
theorem collection_inj {most : Nat → Nat} (hm : ∀ a b, a ≤ b → most a ≤ most b) {l : Len}
    {j k : Nat} {xs ys : List Node} (hj : l.ok j = true) (hk : l.ok k = true)
    (hx : xs.length = most j) (hy : ys.length = most k)
    (hl : Sszable.limited l = true)
    (h : collection H most l j xs = collection H most l k ys)
    (hc : ¬ Collision H (CollectionHashes H most l j xs) (CollectionHashes H most l k ys)) :
    j = k ∧ xs = ys := by
  cases l with
  | any => simp [Sszable.limited] at hl
  | exactly n =>
    simp only [Len.ok, beq_iff_eq] at hj hk
    subst hj
    subst hk
    exact ⟨rfl, merkleize_list_inj (by rw [hx, hy]) (hx ▸ le_depth _) h hc⟩
  | atMost n =>
    simp only [Len.ok, decide_eq_true_eq, Sszable.limited] at hj hk hl
    have he : (merkleize H (depth (most n)) xs, leBytes 32 j) =
        (merkleize H (depth (most n)) ys, leBytes 32 k) := by
      by_contra hne
      exact hc ⟨_, _, Or.inl rfl, Or.inl rfl, hne, h⟩
    rw [Prod.mk.injEq] at he
    have hjk := leBytes_inj (by omega) (by omega) he.2
    refine ⟨hjk, merkleize_list_inj (by rw [hx, hy, hjk]) ?_ he.1 ?_⟩
    · rw [hx]; exact (hm _ _ hj).trans (le_depth _)
    · exact fun h => hc (h.mono (fun _ => Or.inr) (fun _ => Or.inr))

theorem chunkCount_mono (a b : Nat) (h : a ≤ b) : chunkCount a ≤ chunkCount b := by
  unfold chunkCount; omega

theorem packBits_length (bits : List Bool) : (packBits bits).length = (bits.length + 7) / 8 := by
  obtain ⟨k, hk, _, h⟩ := unpack_pack bits
  omega

theorem packBits_inj {xs ys : List Bool} (hl : xs.length = ys.length)
    (h : packBits xs = packBits ys) : xs = ys := by
  obtain ⟨j, _, hx, _⟩ := unpack_pack xs
  obtain ⟨k, _, hy, _⟩ := unpack_pack ys
  rw [h, hy] at hx
  exact (List.append_inj_left hx hl.symm).symm

theorem flat_length {b w : Nat} (xs : List (Fin b)) :
    (xs.flatMap fun x => leBytes w x.val).length = xs.length * w := by
  induction xs with
  | nil => simp
  | cons x xs ih => simp [leBytes_length, ih]; ring

theorem flat_inj {b w : Nat} (hb : b = 256 ^ w) {xs ys : List (Fin b)} (hl : xs.length = ys.length)
    (h : (xs.flatMap fun x => leBytes w x.val) = ys.flatMap fun x => leBytes w x.val) : xs = ys := by
  induction xs generalizing ys with
  | nil => exact (List.eq_nil_of_length_eq_zero hl.symm).symm
  | cons x xs ih =>
    cases ys with
    | nil => simp at hl
    | cons y ys =>
      simp only [List.flatMap_cons] at h
      obtain ⟨h1, h2⟩ := List.append_inj h (by simp [leBytes_length])
      rw [Fin.ext (leBytes_inj (hb ▸ x.2) (hb ▸ y.2) h1), ih (by simpa using hl) h2]

theorem roots_length : (fs : Fields) → (v : fs.Val) → (roots H fs v).length = Fields.count fs
  | .nil, _ => rfl
  | .cons _ _ rest, v => by simp [roots, Fields.count, roots_length rest v.2]

theorem map_inj_on {α : Type} {f : α → Node} : ∀ {xs ys : List α}, xs.map f = ys.map f →
    (∀ x ∈ xs, ∀ y ∈ ys, f x = f y → x = y) → xs = ys
  | [], [], _, _ => rfl
  | [], _ :: _, h, _ => by simp at h
  | _ :: _, [], h, _ => by simp at h
  | x :: xs, y :: ys, h, hi => by
    simp only [List.map_cons, List.cons.injEq] at h
    rw [hi x (by simp) y (by simp) h.1,
      map_inj_on h.2 fun a ha b hb => hi a (by simp [ha]) b (by simp [hb])]

mutual

theorem root_inj : (s : Schema) → Sszable s = true → (v w : s.Val) → root H s v = root H s w →
    ¬ Collision H (Hashes H s v) (Hashes H s w) → v = w
  | .int b, hs, v, w, h, _ => by
    simp only [Sszable, Bool.and_eq_true, beq_iff_eq, decide_eq_true_eq] at hs
    simp only [root] at h
    exact Fin.ext (leBytes_inj (hs.1 ▸ v.2) (hs.1 ▸ w.2)
      (pad_inj (by simp [leBytes_length]) (by simpa [leBytes_length] using hs.2) h))
  | .num b, hs, v, w, h, _ => by
    simp only [Sszable, Bool.and_eq_true, beq_iff_eq, decide_eq_true_eq] at hs
    simp only [root] at h
    exact Fin.ext (leBytes_inj (hs.1 ▸ v.2) (hs.1 ▸ w.2)
      (pad_inj (by simp [leBytes_length]) (by simpa [leBytes_length] using hs.2) h))
  | .bool, _, v, w, h, _ => by
    simp only [root] at h
    have := pad_inj (by simp) (by simp) h
    cases v <;> cases w <;> simp_all
  | .text, hs, _, _, _, _ => by simp [Sszable] at hs
  | .tag _, hs, _, _, _, _ => by simp [Sszable] at hs
  | .bytes n, _, v, w, h, hc => by
    simp only [root] at h
    simp only [Hashes] at hc
    refine Subtype.ext (chunks_inj (by rw [v.2, w.2]) (merkleize_list_inj ?_ ?_ h hc))
    · simp [chunks_length, v.2, w.2]
    · rw [chunks_length, v.2]; exact le_depth _
  | .byteList n, hs, v, w, h, hc => by
    simp only [Hashes] at hc
    have := collection_inj (most := chunkCount) chunkCount_mono (l := .atMost n)
      (by simpa [Len.ok] using v.2) (by simpa [Len.ok] using w.2) (chunks_length _)
      (chunks_length _) hs h hc
    exact Subtype.ext (chunks_inj this.1 this.2)
  | .bitvector n, _, v, w, h, hc => by
    simp only [root] at h
    simp only [Hashes] at hc
    refine Subtype.ext (packBits_inj (by rw [v.2, w.2]) (chunks_inj ?_ (merkleize_list_inj ?_ ?_ h hc)))
    · simp [packBits_length, v.2, w.2]
    · simp [chunks_length, packBits_length, v.2, w.2]
    · rw [chunks_length, packBits_length, v.2]; exact le_depth _
  | .bitlist n, hs, v, w, h, hc => by
    simp only [Hashes] at hc
    have := collection_inj (most := fun n => chunkCount ((n + 7) / 8))
      (fun a b h => chunkCount_mono _ _ (by omega)) (l := .atMost n)
      (by simpa [Len.ok] using v.2) (by simpa [Len.ok] using w.2)
      (by rw [chunks_length, packBits_length]) (by rw [chunks_length, packBits_length]) hs h hc
    exact Subtype.ext (packBits_inj this.1
      (chunks_inj (by simp [packBits_length, this.1]) this.2))
  | .ints b l, hs, v, w, h, hc => by
    simp only [Sszable, Bool.and_eq_true, beq_iff_eq] at hs
    simp only [Hashes] at hc
    have := collection_inj (most := fun n => chunkCount (n * width b))
      (fun x y h => chunkCount_mono _ _ (Nat.mul_le_mul_right _ h)) (l := l) v.2 w.2
      (by rw [chunks_length, flat_length]) (by rw [chunks_length, flat_length]) hs.2 h hc
    exact Subtype.ext (flat_inj hs.1 this.1
      (chunks_inj (by rw [flat_length, flat_length, this.1]) this.2))
  | .seq l s, hs, v, w, h, hc => by
    simp only [Sszable, Bool.and_eq_true] at hs
    simp only [Hashes] at hc
    have := collection_inj (most := id) (fun _ _ h => h) (l := l) v.2 w.2 (by simp) (by simp) hs.1 h
      fun h => hc (h.mono (fun _ => Or.inl) (fun _ => Or.inl))
    exact Subtype.ext (map_inj_on this.2 fun x hx y hy he =>
      root_inj s hs.2 x y he fun h => hc (h.mono (fun _ hp => Or.inr ⟨x, hx, hp⟩)
        (fun _ hq => Or.inr ⟨y, hy, hq⟩)))
  | .record fs, hs, v, w, h, hc => by
    simp only [Sszable] at hs
    simp only [Hashes] at hc
    simp only [root] at h
    refine roots_inj fs hs v w (merkleize_list_inj ?_ ?_ h ?_) ?_
    · simp [roots_length]
    · rw [roots_length]; exact le_depth _
    · exact fun h => hc (h.mono (fun _ => Or.inl) (fun _ => Or.inl))
    · exact fun h => hc (h.mono (fun _ => Or.inr) (fun _ => Or.inr))

theorem roots_inj : (fs : Fields) → Sszable.SszableFields fs = true → (v w : fs.Val) →
    roots H fs v = roots H fs w → ¬ Collision H (FieldHashes H fs v) (FieldHashes H fs w) → v = w
  | .nil, _, _, _, _, _ => rfl
  | .cons _ s rest, hs, v, w, h, hc => by
    simp only [Sszable.SszableFields, Bool.and_eq_true] at hs
    simp only [FieldHashes] at hc
    simp only [roots, List.cons.injEq] at h
    exact Prod.ext
      (root_inj s hs.1 v.1 w.1 h.1 fun h => hc (h.mono (fun _ => Or.inl) (fun _ => Or.inl)))
      (roots_inj rest hs.2 v.2 w.2 h.2 fun h => hc (h.mono (fun _ => Or.inr) (fun _ => Or.inr)))

end

end Verif.Ssz
