import Verif.Proofs.Ssz
import Verif.Spec.SszCodec

/-! # SSZ encodings can be taken apart again -/

namespace Verif.Ssz

open Json Spec

theorem ofLeBytes_leBytes (w n : Nat) (h : n < 256 ^ w) : ofLeBytes (leBytes w n) = n := by
  induction w generalizing n with
  | zero => simp at h; simp [leBytes, ofLeBytes, h]
  | succ w ih =>
    have : n / 256 < 256 ^ w := by
      rw [Nat.div_lt_iff_lt_mul (by decide)]; rwa [Nat.pow_succ] at h
    simp only [leBytes, ofLeBytes, ih _ this, UInt8.toNat_ofNat']
    omega

/-! ## Parts -/

def sizes (ps : List Part) : List (Option Nat) :=
  ps.map fun p => if p.fixed then some p.bytes.length else none

def items (offset : Nat) : List Part → List (List UInt8 ⊕ Nat)
  | [] => []
  | p :: ps =>
    if p.fixed then .inl p.bytes :: items offset ps
    else .inr offset :: items (offset + p.bytes.length) ps

theorem heads_length (offset : Nat) (ps : List Part) :
    (heads offset ps).length = headLength ps := by
  induction ps generalizing offset with
  | nil => rfl
  | cons p ps ih => by_cases h : p.fixed <;> simp [heads, headLength, h, ih, leBytes_length]

theorem headSize_sizes (ps : List Part) : headSize (sizes ps) = headLength ps := by
  induction ps with
  | nil => rfl
  | cons p ps ih =>
    simp only [sizes] at ih
    by_cases h : p.fixed <;> simp [sizes, headSize, headLength, h, ih]

theorem readHeads_heads {offset : Nat} {ps : List Part} {rest : List UInt8}
    (h : offset + (tails ps).length < 2 ^ 32) :
    readHeads (sizes ps) (heads offset ps ++ rest) = some (items offset ps) := by
  induction ps generalizing offset with
  | nil => simp [sizes, readHeads, items]
  | cons p ps ih =>
    by_cases hp : p.fixed
    · simp only [tails, hp, if_true] at h
      have := ih h
      simp only [sizes] at this
      simp [sizes, readHeads, items, heads, hp, this]
    · simp only [tails, hp, if_false, List.length_append, Bool.false_eq_true] at h
      have := ih (offset := offset + p.bytes.length) (by omega)
      simp only [sizes] at this
      have hl : (leBytes 4 offset).length = 4 := leBytes_length ..
      have ht : (leBytes 4 offset ++ (heads (offset + p.bytes.length) ps ++ rest)).take 4 =
          leBytes 4 offset := by rw [List.take_append_of_le_length (by omega), List.take_of_length_le (by omega)]
      have hd : (leBytes 4 offset ++ (heads (offset + p.bytes.length) ps ++ rest)).drop 4 =
          heads (offset + p.bytes.length) ps ++ rest := by
        rw [show (4 : Nat) = (leBytes 4 offset).length from hl.symm, List.drop_left' (by simp [leBytes_length])]
      simp [sizes, readHeads, items, heads, hp, this, ht, hd, hl, List.append_assoc,
        ofLeBytes_leBytes 4 offset (by omega)]

theorem firstOffset_items {offset : Nat} (ps : List Part) :
    firstOffset (offset + (tails ps).length) (items offset ps) = offset := by
  induction ps generalizing offset with
  | nil => simp [firstOffset, items, tails]
  | cons p ps ih => by_cases h : p.fixed <;> simp [firstOffset, items, tails, h, ih]

theorem cut_items {pre : List UInt8} (ps : List Part) :
    cut (pre ++ tails ps) (items pre.length ps) = some (ps.map (·.bytes)) := by
  induction ps generalizing pre with
  | nil => rfl
  | cons p ps ih =>
    by_cases h : p.fixed
    · simp [items, tails, cut, h, ih]
    · have h1 := ih (pre := pre ++ p.bytes)
      have h2 := firstOffset_items (offset := pre.length + p.bytes.length) ps
      simp only [List.append_assoc, List.length_append] at h1
      simp only [Nat.add_assoc] at h2
      simp only [items, tails, cut, h, if_false, Bool.false_eq_true, List.length_append, h1, h2]
      rw [if_neg (by omega)]
      have : ((pre ++ (p.bytes ++ tails ps)).take (pre.length + p.bytes.length)).drop pre.length =
          p.bytes := by
        rw [← List.append_assoc, List.take_append_of_le_length (by simp),
          List.take_of_length_le (by simp), List.drop_left' rfl]
      simp [this]

theorem compose_some {ps : List Part} {bs : List UInt8} (h : compose ps = some bs) :
    bs = heads (headLength ps) ps ++ tails ps ∧
    headLength ps + (tails ps).length < 2 ^ 32 ∧ bs.length = headLength ps + (tails ps).length := by
  unfold compose at h
  simp only at h
  split at h
  · rename_i hl
    cases h
    simp only [List.length_append, heads_length] at hl
    exact ⟨rfl, hl, by simp [heads_length]⟩
  · cases h

theorem takeApart_compose {ps : List Part} {bs : List UInt8} (h : compose ps = some bs) :
    takeApart (sizes ps) bs = some (ps.map (·.bytes)) := by
  obtain ⟨rfl, hl, hb⟩ := compose_some h
  unfold takeApart
  rw [readHeads_heads hl]
  have h1 := firstOffset_items (offset := headLength ps) ps
  rw [← hb] at h1
  simp only [Option.bind_eq_bind, Option.bind_some, h1, headSize_sizes, ne_eq, not_true_eq_false,
    if_false]
  have := cut_items (pre := heads (headLength ps) ps) ps
  rw [heads_length] at this
  simpa using this

theorem compose_length {ps : List Part} {bs : List UInt8} (h : compose ps = some bs) :
    bs.length = (ps.map fun p => (if p.fixed then 0 else 4) + p.bytes.length).sum := by
  obtain ⟨-, -, hb⟩ := compose_some h
  rw [hb]
  clear h hb
  induction ps with
  | nil => rfl
  | cons p ps ih =>
    by_cases hp : p.fixed <;> simp only [headLength, tails, hp, List.map_cons, List.sum_cons,
      List.length_append, if_true, if_false, Bool.false_eq_true] <;> omega

theorem compose_isSome {ps : List Part}
    (h : (ps.map fun p => (if p.fixed then 0 else 4) + p.bytes.length).sum < 2 ^ 32) :
    ∃ bs, compose ps = some bs := by
  have : headLength ps + (tails ps).length =
      (ps.map fun p => (if p.fixed then 0 else 4) + p.bytes.length).sum := by
    clear h
    induction ps with
    | nil => rfl
    | cons p ps ih =>
      by_cases hp : p.fixed <;> simp only [headLength, tails, hp, List.map_cons, List.sum_cons,
      List.length_append, if_true, if_false, Bool.false_eq_true] <;> omega
  refine ⟨heads (headLength ps) ps ++ tails ps, ?_⟩
  unfold compose
  rw [if_pos]
  simp only [List.length_append, heads_length]
  omega

/-! ## Lengths -/

theorem mapM_some_length {α β : Type} {f : α → Option β} {xs : List α} {ys : List β}
    (h : xs.mapM f = some ys) : ys.length = xs.length := by
  induction xs generalizing ys with
  | nil => cases h; rfl
  | cons x xs ih =>
    simp only [List.mapM_cons, Option.bind_eq_bind, Option.bind_eq_some_iff, Option.pure_def,
      Option.some.injEq] at h
    obtain ⟨y, -, zs, hz, rfl⟩ := h
    simp [ih hz]

theorem mapM_some_mem {α β : Type} {f : α → Option β} {xs : List α} {ys : List β}
    (h : xs.mapM f = some ys) : ∀ y ∈ ys, ∃ x ∈ xs, f x = some y := by
  induction xs generalizing ys with
  | nil => cases h; simp
  | cons x xs ih =>
    simp only [List.mapM_cons, Option.bind_eq_bind, Option.bind_eq_some_iff, Option.pure_def,
      Option.some.injEq] at h
    obtain ⟨y, hy, zs, hz, rfl⟩ := h
    intro z hm
    rcases List.mem_cons.mp hm with rfl | hm
    · exact ⟨x, by simp, hy⟩
    · obtain ⟨x', hx', e⟩ := ih hz z hm
      exact ⟨x', List.mem_cons_of_mem _ hx', e⟩

theorem sum_parts {α : Type} {f : α → Option (List UInt8)} {g : α → Nat} {k : Nat} {xs : List α}
    {ys : List (List UInt8)} (h : xs.mapM f = some ys)
    (hg : ∀ x ∈ xs, ∀ y, f x = some y → y.length = g x) :
    (ys.map fun y => k + y.length).sum = (xs.map fun x => k + g x).sum := by
  induction xs generalizing ys with
  | nil => cases h; rfl
  | cons x xs ih =>
    simp only [List.mapM_cons, Option.bind_eq_bind, Option.bind_eq_some_iff, Option.pure_def,
      Option.some.injEq] at h
    obtain ⟨y, hy, zs, hz, rfl⟩ := h
    simp [ih hz fun x' hx' => hg x' (List.mem_cons_of_mem _ hx'), hg x (by simp) y hy]

mutual

theorem ser_length : (s : Schema) → (v : s.Val) → {bs : List UInt8} → ser s v = some bs →
    bs.length = encodedSize s v
  | .int b, v, bs, h => by
    simp only [ser, Option.some.injEq] at h; subst h; simp [leBytes_length, encodedSize]
  | .num b, v, bs, h => by
    simp only [ser, Option.some.injEq] at h; subst h; simp [leBytes_length, encodedSize]
  | .bool, v, bs, h => by simp only [ser, Option.some.injEq] at h; subst h; simp [encodedSize]
  | .text, v, bs, h => by simp [ser] at h
  | .tag _, v, bs, h => by simp [ser] at h
  | .bytes n, v, bs, h => by
    simp only [ser, Option.some.injEq] at h; subst h; simp [encodedSize, v.2]
  | .byteList n, v, bs, h => by
    simp only [ser, Option.some.injEq] at h; subst h; simp [encodedSize]
  | .bitvector n, v, bs, h => by
    simp only [ser, Option.some.injEq] at h; subst h
    simp [encodedSize, bitvector_serialize, packBits_length, v.2]
  | .bitlist n, v, bs, h => by
    simp only [ser, Option.some.injEq] at h; subst h
    simp only [encodedSize, bitlist_serialize, packBits_length, List.length_append, List.length_singleton]
    omega
  | .ints b l, v, bs, h => by
    simp only [ser, Option.some.injEq] at h; subst h
    simp only [encodedSize, flat_length]
  | .seq l s, v, bs, h => by
    simp only [ser, Option.bind_eq_bind, Option.bind_eq_some_iff] at h
    obtain ⟨parts, hp, h⟩ := h
    rw [compose_length h]
    simp only [List.map_map, encodedSize]
    have := sum_parts (k := overhead s) (g := fun x => encodedSize s x) hp
      (fun x _ y hy => ser_length s x hy)
    simpa only [overhead, Function.comp_def] using this
  | .record fs, v, bs, h => by
    simp only [ser, Option.bind_eq_bind, Option.bind_eq_some_iff] at h
    obtain ⟨parts, hp, h⟩ := h
    rw [compose_length h, sers_length fs v hp, encodedSize]

theorem sers_length : (fs : Fields) → (v : fs.Val) → {ps : List Part} → sers fs v = some ps →
    (ps.map fun p => (if p.fixed then 0 else 4) + p.bytes.length).sum = encodedSize.ofFields fs v
  | .nil, v, ps, h => by simp only [sers, Option.some.injEq] at h; subst h; simp [encodedSize.ofFields]
  | .cons n s rest, v, ps, h => by
    simp only [sers, Option.bind_eq_bind, Option.bind_eq_some_iff, Option.some.injEq] at h
    obtain ⟨b, hb, qs, hq, rfl⟩ := h
    simp [encodedSize.ofFields, ser_length s v.1 hb, sers_length rest v.2 hq, overhead]

end

mutual

theorem size_fixed : (s : Schema) → {n : Nat} → fixedSize s = some n → (v : s.Val) → encodedSize s v = n
  | .int b, n, h, v => by simpa [fixedSize, encodedSize] using h
  | .num b, n, h, v => by simpa [fixedSize, encodedSize] using h
  | .bool, n, h, v => by simpa [fixedSize, encodedSize] using h
  | .text, n, h, v => by simp [fixedSize] at h
  | .tag _, n, h, v => by simp [fixedSize] at h
  | .bytes _, n, h, v => by simpa [fixedSize, encodedSize] using h
  | .byteList _, n, h, v => by simp [fixedSize] at h
  | .bitvector _, n, h, v => by simpa [fixedSize, encodedSize] using h
  | .bitlist _, n, h, v => by simp [fixedSize] at h
  | .ints b (.exactly m), n, h, v => by
    have := v.2
    simp only [Len.ok, beq_iff_eq] at this
    simpa [fixedSize, encodedSize, this] using h
  | .ints b (.atMost m), n, h, v => by simp [fixedSize] at h
  | .ints b .any, n, h, v => by simp [fixedSize] at h
  | .seq (.exactly m) s, n, h, v => by
    simp only [fixedSize, Option.map_eq_some_iff] at h
    obtain ⟨k, hk, rfl⟩ := h
    have hl := v.2
    simp only [Len.ok, beq_iff_eq] at hl
    simp only [encodedSize]
    rw [List.map_congr_left (g := fun _ => k) fun x _ => by
      rw [size_fixed s hk x, overhead, hk]; simp]
    simp [hl]
  | .seq (.atMost m) s, n, h, v => by simp [fixedSize] at h
  | .seq .any s, n, h, v => by simp [fixedSize] at h
  | .record fs, n, h, v => by
    simp only [fixedSize] at h
    simpa [encodedSize] using sizes_fixed fs h v

theorem sizes_fixed : (fs : Fields) → {n : Nat} → fixedSizes fs = some n → (v : fs.Val) →
    encodedSize.ofFields fs v = n
  | .nil, n, h, v => by simpa [fixedSizes, encodedSize.ofFields] using h
  | .cons _ s rest, n, h, v => by
    simp only [fixedSizes] at h
    split at h
    · rename_i a b ha hb
      cases h
      simp [encodedSize.ofFields, size_fixed s ha v.1, sizes_fixed rest hb v.2, overhead, ha]
    · cases h

end

theorem part_size {s : Schema} {v : s.Val} {bs : List UInt8} (h : ser s v = some bs) :
    (if (fixedSize s).isSome then some bs.length else none) = fixedSize s := by
  cases hf : fixedSize s with
  | none => rfl
  | some n => simp [ser_length s v h, size_fixed s hf v]

/-! ## Round trips -/

theorem deInt_leBytes {b : Nat} (hb : b = 256 ^ width b) (v : Fin b) :
    deInt b (leBytes (width b) v.val) = some v := by
  have h : ofLeBytes (leBytes (width b) v.val) = v.val :=
    ofLeBytes_leBytes _ _ (lt_of_lt_of_eq v.2 hb)
  unfold deInt
  simp [leBytes_length, h]

theorem collect_val {α : Type} {l : Len} (v : {xs : List α // l.ok xs.length = true}) :
    collect l v.val = some v := by
  unfold collect; rw [dif_pos v.2]

theorem mapM_back {α β : Type} {f : α → Option β} {g : β → Option α} {xs : List α} {ys : List β}
    (h : xs.mapM f = some ys) (hg : ∀ x ∈ xs, ∀ y, f x = some y → g y = some x) :
    ys.mapM g = some xs := by
  induction xs generalizing ys with
  | nil => cases h; rfl
  | cons x xs ih =>
    simp only [List.mapM_cons, Option.bind_eq_bind, Option.bind_eq_some_iff, Option.pure_def,
      Option.some.injEq] at h
    obtain ⟨y, hy, zs, hz, rfl⟩ := h
    simp [List.mapM_cons, hg x (by simp) y hy,
      ih hz fun x' hx' => hg x' (List.mem_cons_of_mem _ hx')]

theorem sizes_same {size : Option Nat} {ys : List (List UInt8)}
    (h : ∀ y ∈ ys, (if size.isSome then some y.length else none) = size) :
    sizes (ys.map fun y => ⟨size.isSome, y⟩) = List.replicate ys.length size := by
  simp only [sizes, List.map_map]
  rw [List.eq_replicate_iff]
  refine ⟨by simp, fun b hb => ?_⟩
  obtain ⟨y, hy, rfl⟩ := List.mem_map.mp hb
  exact h y hy

theorem fixed_length {n : Nat} {ys : List (List UInt8)} (h : ∀ y ∈ ys, y.length = n) :
    (ys.map fun y => 0 + y.length).sum = ys.length * n := by
  rw [List.map_congr_left (g := fun _ => n) fun y hy => by simp [h y hy]]
  simp

theorem headLength_variable (ys : List (List UInt8)) :
    headLength (ys.map fun y => ⟨false, y⟩) = 4 * ys.length := by
  induction ys with
  | nil => rfl
  | cons y ys ih => simp [headLength, ih]; omega

theorem elementSizes_compose {size : Option Nat} {ys : List (List UInt8)} {bs : List UInt8}
    (hz : size ≠ some 0) (h : ∀ y ∈ ys, (if size.isSome then some y.length else none) = size)
    (hc : compose (ys.map fun y => ⟨size.isSome, y⟩) = some bs) :
    elementSizes size bs = some (List.replicate ys.length size) := by
  cases size with
  | some n =>
    have hn : 0 < n := by simp at hz; omega
    have hl := compose_length hc
    simp only [List.map_map] at hl
    have := fixed_length (n := n) (ys := ys) fun y hy => by simpa using h y hy
    simp only [Option.isSome_some, Function.comp_def, if_true] at hl
    rw [this] at hl
    simp [elementSizes, hl, Nat.mul_mod_left, hn]
    omega
  | none =>
    obtain ⟨rfl, hl, hb⟩ := compose_some hc
    simp only [Option.isSome_none] at *
    rw [headLength_variable] at *
    cases ys with
    | nil => rfl
    | cons y ys =>
      have h4 : (leBytes 4 (4 * (y :: ys).length)).length = 4 := leBytes_length ..
      have ht : ((heads (4 * (y :: ys).length) ((y :: ys).map fun y => ⟨false, y⟩)) ++
          tails ((y :: ys).map fun y => ⟨false, y⟩)).take 4 = leBytes 4 (4 * (y :: ys).length) := by
        simp only [List.map_cons, heads, Bool.false_eq_true, if_false, List.append_assoc]
        rw [List.take_append_of_le_length (by omega), List.take_of_length_le (by omega)]
      have hne : ((heads (4 * (y :: ys).length) ((y :: ys).map fun y => (⟨false, y⟩ : Part))) ++
          tails ((y :: ys).map fun y => ⟨false, y⟩)).isEmpty = false := by
        rw [List.isEmpty_eq_false_iff]
        intro e
        rw [e] at hb
        simp only [List.length_nil, List.length_cons] at hb
        omega
      have ho : ofLeBytes (leBytes 4 (4 * (y :: ys).length)) = 4 * (y :: ys).length :=
        ofLeBytes_leBytes _ _ (by omega)
      simp only [elementSizes, hne, Bool.false_eq_true, if_false, ht, ho]
      rw [if_neg (by simp), Nat.mul_div_cancel_left _ (by decide)]

theorem ints_compose {b : Nat} (hw : 0 < width b) (xs : List (Fin b)) (bs : List UInt8)
    (h : bs = xs.flatMap fun x => leBytes (width b) x.val) :
    elementSizes (some (width b)) bs = some (List.replicate xs.length (some (width b))) ∧
    takeApart (List.replicate xs.length (some (width b))) bs =
      some (xs.map fun x => leBytes (width b) x.val) := by
  have hl : bs.length = xs.length * width b := by rw [h, flat_length]
  constructor
  · simp [elementSizes, hl, Nat.mul_mod_left, Nat.mul_div_cancel _ hw]
    omega
  · have hr : ∀ (xs : List (Fin b)),
        readHeads (List.replicate xs.length (some (width b)))
          (xs.flatMap fun x => leBytes (width b) x.val) =
        some (xs.map fun x => .inl (leBytes (width b) x.val)) := by
      intro xs
      induction xs with
      | nil => rfl
      | cons x xs ih =>
        have hx : (leBytes (width b) x.val).length = width b := leBytes_length ..
        simp only [List.length_cons, List.replicate_succ, readHeads, List.flatMap_cons,
          List.length_append, hx, List.drop_left' hx, List.take_left' hx, ih]
        simp
    have hf : ∀ (xs : List (Fin b)) (n : Nat),
        firstOffset n (xs.map fun x => .inl (leBytes (width b) x.val)) = n := by
      intro xs n
      induction xs with
      | nil => rfl
      | cons x xs ih => simpa [firstOffset] using ih
    have hc : ∀ (xs : List (Fin b)) (bs : List UInt8),
        cut bs (xs.map fun x => .inl (leBytes (width b) x.val)) =
          some (xs.map fun x => leBytes (width b) x.val) := by
      intro xs bs
      induction xs with
      | nil => rfl
      | cons x xs ih => simp [cut, ih]
    have hz : ∀ k : Nat, headSize (List.replicate k (some (width b))) = k * width b := by
      intro k
      induction k with
      | zero => simp [headSize]
      | succ k ih => simp [List.replicate_succ, headSize, ih]; ring
    unfold takeApart
    rw [h, hr]
    simp only [Option.bind_eq_bind, Option.bind_some, hf, hz, hc, ← h, hl]
    simp

mutual

theorem de_ser : (s : Schema) → HasEncoding s = true → (v : s.Val) → {bs : List UInt8} →
    ser s v = some bs → de s bs = some v
  | .int b, he, v, bs, h => by
    simp only [ser, Option.some.injEq] at h; subst h
    simp only [HasEncoding, Bool.and_eq_true, beq_iff_eq] at he
    simpa only [de] using deInt_leBytes he.1 v
  | .num b, he, v, bs, h => by
    simp only [ser, Option.some.injEq] at h; subst h
    simp only [HasEncoding, Bool.and_eq_true, beq_iff_eq] at he
    simpa only [de] using deInt_leBytes he.1 v
  | .bool, he, v, bs, h => by
    simp only [ser, Option.some.injEq] at h; subst h
    cases v <;> simp [de]
  | .text, he, v, bs, h => by simp [ser] at h
  | .tag _, he, v, bs, h => by simp [ser] at h
  | .bytes n, he, v, bs, h => by
    simp only [ser, Option.some.injEq] at h; subst h
    simp only [de]; rw [dif_pos v.2]
  | .byteList n, he, v, bs, h => by
    simp only [ser, Option.some.injEq] at h; subst h
    simp only [de]; rw [dif_pos v.2]
  | .bitvector n, he, v, bs, h => by
    simp only [ser, Option.some.injEq] at h; subst h
    obtain ⟨bits, rfl⟩ := v
    simp only [de, bitvector_roundtrip, Option.bind_eq_bind, Option.bind_some]
    simp
  | .bitlist n, he, v, bs, h => by
    simp only [ser, Option.some.injEq] at h; subst h
    simp only [de, bitlist_roundtrip v.2, Option.bind_eq_bind, Option.bind_some]
    rw [dif_pos v.2]
  | .ints b l, he, v, bs, h => by
    simp only [ser, Option.some.injEq] at h
    simp only [HasEncoding, Bool.and_eq_true, beq_iff_eq, decide_eq_true_eq] at he
    obtain ⟨h1, h2⟩ := ints_compose he.2 v.val bs h.symm
    simp only [de, Option.bind_eq_bind, h1, Option.bind_some, h2]
    rw [mapM_map (f := deInt b) (g := fun x => leBytes (width b) x.val) v.val
      fun x _ => deInt_leBytes he.1 x]
    exact collect_val v
  | .seq l s, he, v, bs, h => by
    simp only [ser, Option.bind_eq_bind, Option.bind_eq_some_iff] at h
    obtain ⟨ys, hy, h⟩ := h
    simp only [HasEncoding, Bool.and_eq_true, bne_iff_ne, ne_eq] at he
    have hs : ∀ y ∈ ys, (if (fixedSize s).isSome then some y.length else none) = fixedSize s := by
      intro y hm
      obtain ⟨x, -, hx⟩ := mapM_some_mem hy y hm
      exact part_size hx
    have h2 := takeApart_compose h
    rw [sizes_same hs] at h2
    simp only [de, Option.bind_eq_bind, elementSizes_compose he.1 hs h, Option.bind_some, h2,
      List.map_map]
    rw [show ((fun p : Part => p.bytes) ∘ fun bytes => ⟨(fixedSize s).isSome, bytes⟩) = id from rfl,
      List.map_id, mapM_back hy fun x _ y hxy => de_ser s he.2 x hxy]
    exact collect_val v
  | .record fs, he, v, bs, h => by
    simp only [ser, Option.bind_eq_bind, Option.bind_eq_some_iff] at h
    obtain ⟨ps, hp, h⟩ := h
    simp only [HasEncoding] at he
    obtain ⟨h1, h2⟩ := des_sers fs he v hp
    simp only [de, Option.bind_eq_bind, ← h1, takeApart_compose h, Option.bind_some, h2]

theorem des_sers : (fs : Fields) → HasEncoding.HasEncodingFields fs = true → (v : fs.Val) →
    {ps : List Part} → sers fs v = some ps →
    sizes ps = fieldSizes fs ∧ des fs (ps.map (·.bytes)) = some v
  | .nil, he, v, ps, h => by
    simp only [sers, Option.some.injEq] at h; subst h
    exact ⟨rfl, rfl⟩
  | .cons n s rest, he, v, ps, h => by
    simp only [sers, Option.bind_eq_bind, Option.bind_eq_some_iff, Option.some.injEq] at h
    obtain ⟨b, hb, qs, hq, rfl⟩ := h
    simp only [HasEncoding.HasEncodingFields, Bool.and_eq_true] at he
    obtain ⟨h1, h2⟩ := des_sers rest he.2 v.2 hq
    simp only [sizes] at h1
    constructor
    · simp only [sizes, List.map_cons, fieldSizes, h1, part_size hb]
    · simp only [List.map_cons, des, de_ser s he.1 v.1 hb, h2, Option.bind_eq_bind,
        Option.bind_some]

end

/-! ## Success -/

theorem mapM_isSome {α β : Type} {f : α → Option β} {xs : List α}
    (h : ∀ x ∈ xs, ∃ y, f x = some y) : ∃ ys, xs.mapM f = some ys := by
  induction xs with
  | nil => exact ⟨[], rfl⟩
  | cons x xs ih =>
    obtain ⟨y, hy⟩ := h x (by simp)
    obtain ⟨ys, hys⟩ := ih fun x hx => h x (List.mem_cons_of_mem _ hx)
    exact ⟨y :: ys, by simp [List.mapM_cons, hy, hys]⟩

theorem le_sum_of_mem {n : Nat} {l : List Nat} (h : n ∈ l) : n ≤ l.sum := by
  induction l with
  | nil => cases h
  | cons a l ih =>
    rcases List.mem_cons.mp h with rfl | h
    · simp
    · have := ih h
      simp only [List.sum_cons]
      omega

mutual

theorem ser_some : (s : Schema) → HasEncoding s = true → (v : s.Val) → encodedSize s v < 2 ^ 32 →
    ∃ bs, ser s v = some bs
  | .int b, he, v, h => ⟨_, rfl⟩
  | .num b, he, v, h => ⟨_, rfl⟩
  | .bool, he, v, h => ⟨_, rfl⟩
  | .text, he, v, h => by simp [HasEncoding] at he
  | .tag _, he, v, h => by simp [HasEncoding] at he
  | .bytes n, he, v, h => ⟨_, rfl⟩
  | .byteList n, he, v, h => ⟨_, rfl⟩
  | .bitvector n, he, v, h => ⟨_, rfl⟩
  | .bitlist n, he, v, h => ⟨_, rfl⟩
  | .ints b l, he, v, h => ⟨_, rfl⟩
  | .seq l s, he, v, h => by
    simp only [HasEncoding, Bool.and_eq_true] at he
    simp only [encodedSize] at h
    have hx : ∀ x ∈ v.val, ∃ y, ser s x = some y := by
      intro x hx
      refine ser_some s he.2 x (Nat.lt_of_le_of_lt ?_ h)
      have := le_sum_of_mem (List.mem_map_of_mem (f := fun x => overhead s + encodedSize s x) hx)
      omega
    obtain ⟨ys, hys⟩ := mapM_isSome hx
    have := sum_parts (k := overhead s) (g := fun x => encodedSize s x) hys
      (fun x _ y hy => ser_length s x hy)
    obtain ⟨bs, hb⟩ := compose_isSome (ps := ys.map fun bytes => ⟨(fixedSize s).isSome, bytes⟩) (by
      simp only [List.map_map, Function.comp_def]
      simp only [overhead] at this h
      rw [this]; exact h)
    exact ⟨bs, by simp only [ser, hys, Option.bind_eq_bind, Option.bind_some, hb]⟩
  | .record fs, he, v, h => by
    simp only [HasEncoding] at he
    simp only [encodedSize] at h
    obtain ⟨ps, hp⟩ := sers_some fs he v h
    obtain ⟨bs, hb⟩ := compose_isSome (ps := ps) (by rw [sers_length fs v hp]; exact h)
    exact ⟨bs, by simp only [ser, hp, Option.bind_eq_bind, Option.bind_some, hb]⟩

theorem sers_some : (fs : Fields) → HasEncoding.HasEncodingFields fs = true → (v : fs.Val) →
    encodedSize.ofFields fs v < 2 ^ 32 → ∃ ps, sers fs v = some ps
  | .nil, he, v, h => ⟨_, rfl⟩
  | .cons n s rest, he, v, h => by
    simp only [HasEncoding.HasEncodingFields, Bool.and_eq_true] at he
    simp only [encodedSize.ofFields] at h
    obtain ⟨b, hb⟩ := ser_some s he.1 v.1 (by omega)
    obtain ⟨ps, hp⟩ := sers_some rest he.2 v.2 (by omega)
    exact ⟨⟨(fixedSize s).isSome, b⟩ :: ps, by
      simp only [sers, hb, hp, Option.bind_eq_bind, Option.bind_some]⟩

end

/-! ## Where the parts are -/

theorem headLength_append (as bs : List Part) :
    headLength (as ++ bs) = headLength as + headLength bs := by
  induction as with
  | nil => simp [headLength]
  | cons a as ih => simp only [List.cons_append, headLength, ih]; omega

theorem tails_append (as bs : List Part) : tails (as ++ bs) = tails as ++ tails bs := by
  induction as with
  | nil => rfl
  | cons a as ih => by_cases h : a.fixed <;> simp [tails, ih, h]

theorem heads_append (offset : Nat) (as bs : List Part) :
    heads offset (as ++ bs) = heads offset as ++ heads (offset + (tails as).length) bs := by
  induction as generalizing offset with
  | nil => rfl
  | cons a as ih =>
    by_cases h : a.fixed
    · simp [heads, tails, h, ih]
    · simp [heads, tails, h, ih, Nat.add_assoc]

theorem slice_left (xs ys zs : List UInt8) : slice (xs ++ (ys ++ zs)) xs.length ys.length = ys := by
  unfold slice
  rw [List.drop_left' rfl, List.take_left' rfl]

theorem compose_found {as rest : List Part} {s : Schema} {b bs : List UInt8}
    (h : compose (as ++ ⟨(fixedSize s).isSome, b⟩ :: rest) = some bs) :
    FoundAt bs (headLength as) s b := by
  obtain ⟨rfl, hl, -⟩ := compose_some h
  generalize hn : headLength (as ++ ⟨(fixedSize s).isSome, b⟩ :: rest) = n at *
  unfold FoundAt
  have hh : headLength as = (heads n as).length := (heads_length ..).symm
  by_cases hf : (fixedSize s).isSome
  · rw [if_pos hf, heads_append, hh]
    simp only [heads, hf, if_true, List.append_assoc]
    exact slice_left ..
  · rw [if_neg hf]
    have hf' : (fixedSize s).isSome = false := by simpa using hf
    refine ⟨n + (tails as).length, ?_, ?_, ?_⟩
    · rw [tails_append, List.length_append] at hl
      omega
    · rw [heads_append, hh]
      simp only [heads, hf', Bool.false_eq_true, if_false, List.append_assoc]
      have := slice_left (heads n as) (leBytes 4 (n + (tails as).length))
        (heads (n + ((tails as).length + b.length)) rest ++
          tails (as ++ ⟨false, b⟩ :: rest))
      rw [leBytes_length] at this
      simpa [Nat.add_assoc] using this
    · have hh : (heads n (as ++ ⟨(fixedSize s).isSome, b⟩ :: rest)).length = n := by
        rw [heads_length, hn]
      have := slice_left (heads n (as ++ ⟨(fixedSize s).isSome, b⟩ :: rest) ++ tails as) b (tails rest)
      rw [List.length_append, hh] at this
      rw [tails_append]
      simp only [tails, hf', Bool.false_eq_true, if_false] at this ⊢
      simpa [List.append_assoc] using this

theorem headLength_one {s : Schema} {v : s.Val} {b : List UInt8} (h : ser s v = some b)
    (ps : List Part) :
    headLength (⟨(fixedSize s).isSome, b⟩ :: ps) = slotSize s + headLength ps := by
  have := part_size h
  cases hf : fixedSize s with
  | none => simp [headLength, slotSize, hf]
  | some n => rw [hf] at this; simp at this; simp [headLength, slotSize, hf, this]

theorem sers_at {name : String} : (fs : Fields) → (v : fs.Val) → {ps : List Part} →
    {x : (s : Schema) × s.Val} → sers fs v = some ps → fieldAt name fs v = some x →
    ∃ as b rest, ps = as ++ ⟨(fixedSize x.1).isSome, b⟩ :: rest ∧ ser x.1 x.2 = some b ∧
      headLength as = slotOf name fs
  | .nil, v, ps, x, h, hx => by simp [fieldAt] at hx
  | .cons n s rest, v, ps, x, h, hx => by
    simp only [sers, Option.bind_eq_bind, Option.bind_eq_some_iff, Option.some.injEq] at h
    obtain ⟨b, hb, qs, hq, rfl⟩ := h
    simp only [fieldAt] at hx
    by_cases hn : n = name
    · rw [if_pos hn] at hx
      cases hx
      exact ⟨[], b, qs, rfl, hb, by simp [headLength, slotOf, hn]⟩
    · rw [if_neg hn] at hx
      obtain ⟨as, b', rest', rfl, h1, h2⟩ := sers_at rest v.2 hq hx
      exact ⟨⟨(fixedSize s).isSome, b⟩ :: as, b', rest', rfl, h1, by
        rw [headLength_one hb, h2]; simp [slotOf, hn]⟩

theorem mapM_at {s : Schema} {xs : List s.Val} {ys : List (List UInt8)} {i : Nat} {x : s.Val}
    (h : xs.mapM (fun x => ser s x) = some ys) (hx : xs[i]? = some x) :
    ∃ as b rest, ys.map (fun y => (⟨(fixedSize s).isSome, y⟩ : Part)) =
        as ++ ⟨(fixedSize s).isSome, b⟩ :: rest ∧ ser s x = some b ∧
      headLength as = i * slotSize s := by
  induction xs generalizing ys i with
  | nil => simp at hx
  | cons a xs ih =>
    simp only [List.mapM_cons, Option.bind_eq_bind, Option.bind_eq_some_iff, Option.pure_def,
      Option.some.injEq] at h
    obtain ⟨y, hy, zs, hz, rfl⟩ := h
    cases i with
    | zero =>
      simp at hx
      subst hx
      exact ⟨[], y, zs.map fun y => ⟨(fixedSize s).isSome, y⟩, rfl, hy, by simp [headLength]⟩
    | succ i =>
      obtain ⟨as, b, rest, h1, h2, h3⟩ := ih hz (by simpa using hx)
      exact ⟨⟨(fixedSize s).isSome, y⟩ :: as, b, rest, by simp [h1], h2, by
        rw [headLength_one hy, h3]; ring⟩

end Verif.Ssz
