import Verif.Proofs.SszCodec

/-! # What is decoded is the encoding of what it is decoded to -/

namespace Verif.Ssz

open Json Spec

/-! ## Integers -/

theorem leBytes_ofLeBytes (bs : List UInt8) : leBytes bs.length (ofLeBytes bs) = bs := by
  induction bs with
  | nil => rfl
  | cons b bs ih =>
    have hb : b.toNat < 256 := b.toNat_lt
    have h1 : (b.toNat + 256 * ofLeBytes bs) / 256 = ofLeBytes bs := by omega
    have h2 : UInt8.ofNat (b.toNat + 256 * ofLeBytes bs) = b := by
      apply UInt8.toNat_inj.1
      rw [UInt8.toNat_ofNat']
      omega
    simp only [List.length_cons, leBytes, ofLeBytes, h1, h2, ih]

theorem deInt_some {b : Nat} {bs : List UInt8} {v : Fin b} (h : deInt b bs = some v) :
    leBytes (width b) v.val = bs := by
  unfold deInt at h
  split at h
  · rename_i hl
    split at h
    · cases h
      rw [← hl]
      exact leBytes_ofLeBytes bs
    · cases h
  · cases h

/-! ## Bits -/

theorem byte_bits_inj {a b : UInt8}
    (h : ((List.range 8).map fun i => a.toNat.testBit i) =
      (List.range 8).map fun i => b.toNat.testBit i) : a = b := by
  apply UInt8.toNat_inj.1
  apply Nat.eq_of_testBit_eq
  intro i
  rcases Nat.lt_or_ge i 8 with hi | hi
  · have := congrArg (·[i]?) h
    simpa [List.getElem?_map, List.getElem?_range hi] using this
  · have e : ∀ x : UInt8, x.toNat.testBit i = false := fun x =>
      Nat.testBit_lt_two_pow (Nat.lt_of_lt_of_le x.toNat_lt
        (show 2 ^ 8 ≤ 2 ^ i from Nat.pow_le_pow_right (by omega) hi))
    rw [e, e]

theorem unpackBits_length (bs : List UInt8) : (unpackBits bs).length = 8 * bs.length := by
  induction bs with
  | nil => rfl
  | cons b bs ih =>
    unfold unpackBits at ih ⊢
    rw [List.flatMap_cons, List.length_append, ih]
    simp only [List.length_map, List.length_range, List.length_cons]
    omega

theorem unpackBits_inj {as bs : List UInt8} (h : unpackBits as = unpackBits bs) : as = bs := by
  induction as generalizing bs with
  | nil =>
    have := congrArg List.length h
    rw [unpackBits_length, unpackBits_length] at this
    cases bs with
    | nil => rfl
    | cons => simp at this
  | cons a as ih =>
    cases bs with
    | nil =>
      have := congrArg List.length h
      rw [unpackBits_length, unpackBits_length] at this
      simp at this
    | cons b bs =>
      unfold unpackBits at h
      rw [List.flatMap_cons, List.flatMap_cons] at h
      obtain ⟨h1, h2⟩ := List.append_inj h (by simp)
      rw [byte_bits_inj h1, ih h2]

theorem all_false {l : List Bool} (h : ∀ b ∈ l, b = false) : l = List.replicate l.length false :=
  List.eq_replicate_iff.2 ⟨rfl, h⟩

/-- The bytes are the packed bits if they have these bits, and less than a byte of zeros after them. -/
theorem pack_of_unpack {bits : List Bool} {bs : List UInt8} {m : Nat}
    (h : unpackBits bs = bits ++ List.replicate m false) (hm : m < 8) : packBits bits = bs := by
  obtain ⟨k, hk, e, hl⟩ := unpack_pack bits
  apply unpackBits_inj
  have h1 := congrArg List.length h
  rw [unpackBits_length, List.length_append, List.length_replicate] at h1
  have : k = m := by omega
  rw [e, h, this]

theorem bitvector_some {n : Nat} {bs : List UInt8} {bits : List Bool}
    (h : bitvector_deserialize n bs = some bits) : bitvector_serialize bits = bs := by
  unfold bitvector_deserialize at h
  split at h
  · rename_i hc
    cases h
    have hz := all_false (l := (unpackBits bs).drop n) fun b hb => by
      simpa using List.all_eq_true.1 hc.2 b hb
    have hl := unpackBits_length bs
    refine pack_of_unpack (m := ((unpackBits bs).drop n).length) ?_ ?_
    · rw [← hz, List.take_append_drop]
    · rw [List.length_drop, hl]
      omega
  · cases h

theorem last_true {l : List Bool} (h : true ∈ l) :
    ∃ pre m, l = pre ++ [true] ++ List.replicate m false := by
  induction l with
  | nil => cases h
  | cons b l ih =>
    by_cases ht : true ∈ l
    · obtain ⟨pre, m, e⟩ := ih ht
      exact ⟨b :: pre, m, by rw [e]; rfl⟩
    · have hb : b = true := by
        rcases List.mem_cons.1 h with h | h
        · exact h.symm
        · exact absurd h ht
      refine ⟨[], l.length, ?_⟩
      rw [← all_false (l := l) fun b hb => by cases b with
        | false => rfl
        | true => exact absurd hb ht]
      rw [hb]
      rfl

theorem bitlist_some {n : Nat} {bs : List UInt8} {bits : List Bool}
    (h : bitlist_deserialize n bs = some bits) : bitlist_serialize bits = bs := by
  unfold bitlist_deserialize at h
  split at h
  · cases h
  · rename_i last hlast
    split at h
    · cases h
    · rename_i hz
      obtain ⟨init, rfl⟩ : ∃ init, bs = init ++ [last] := by
        obtain ⟨hne, e⟩ := List.getLast?_eq_some_iff.1 hlast
        exact ⟨_, e⟩
      have ht : true ∈ (List.range 8).map fun i => last.toNat.testBit i := by
        by_contra hn
        apply hz
        apply byte_bits_inj
        apply List.map_congr_left
        intro i hi
        have : last.toNat.testBit i ≠ true := fun e =>
          hn (List.mem_map.2 ⟨i, hi, e⟩)
        simpa using this
      obtain ⟨pre, m, e⟩ := last_true ht
      have hu : unpackBits (init ++ [last]) =
          (unpackBits init ++ pre) ++ [true] ++ List.replicate m false := by
        unfold unpackBits
        rw [List.flatMap_append, List.flatMap_cons, List.flatMap_nil, List.append_nil, e]
        simp only [List.append_assoc]
      have hm : m < 8 := by
        have := congrArg List.length e
        simp at this
        omega
      rw [hu, stripZeros_append] at h
      simp only [List.dropLast_concat] at h
      split at h
      · cases h
        exact pack_of_unpack hu hm
      · cases h

/-! ## Composites -/

/-- The first section as it was read -/
def headBytes : List (List UInt8 ⊕ Nat) → List UInt8
  | [] => []
  | .inl x :: rest => x ++ headBytes rest
  | .inr o :: rest => leBytes 4 o ++ headBytes rest

/-- The parts that were found -/
def parts (size : List (Option Nat)) (xs : List (List UInt8)) : List Part :=
  List.zipWith (fun z x => ⟨z.isSome, x⟩) size xs

theorem readHeads_some {size : List (Option Nat)} {bs : List UInt8} {its : List (List UInt8 ⊕ Nat)}
    (h : readHeads size bs = some its) :
    headSize size ≤ bs.length ∧ headBytes its = bs.take (headSize size) := by
  induction size generalizing bs its with
  | nil => cases h; simp [headSize, headBytes]
  | cons z size ih =>
    cases z with
    | some n =>
      simp only [readHeads, Option.bind_eq_bind] at h
      split at h
      · cases h
      · simp only [Option.bind_eq_some_iff, Option.some.injEq] at h
        obtain ⟨rest, hr, rfl⟩ := h
        obtain ⟨h1, h2⟩ := ih hr
        rw [List.length_drop] at h1
        refine ⟨by simp only [headSize]; omega, ?_⟩
        simp only [headBytes, headSize, h2]
        rw [List.take_add]
    | none =>
      simp only [readHeads, Option.bind_eq_bind] at h
      split at h
      · cases h
      · simp only [Option.bind_eq_some_iff, Option.some.injEq] at h
        obtain ⟨rest, hr, rfl⟩ := h
        obtain ⟨h1, h2⟩ := ih hr
        rw [List.length_drop] at h1
        refine ⟨by simp only [headSize]; omega, ?_⟩
        have h4 : (bs.take 4).length = 4 := by rw [List.length_take]; omega
        have e := leBytes_ofLeBytes (bs.take 4)
        rw [h4] at e
        simp only [headBytes, headSize, h2, e]
        rw [List.take_add]

/-- The parts that were cut out make up the first section and what follows it. -/
theorem cut_some {size : List (Option Nat)} {bs rs : List UInt8} {its : List (List UInt8 ⊕ Nat)}
    {xs : List (List UInt8)} (hr : readHeads size rs = some its) (h : cut bs its = some xs) :
    xs.length = size.length ∧ headLength (parts size xs) = headSize size ∧
    firstOffset bs.length its ≤ bs.length ∧
    heads (firstOffset bs.length its) (parts size xs) = headBytes its ∧
    tails (parts size xs) = bs.drop (firstOffset bs.length its) := by
  induction size generalizing rs its xs with
  | nil =>
    cases hr; cases h
    refine ⟨rfl, rfl, Nat.le_refl _, rfl, ?_⟩
    simp [firstOffset, parts, tails]
  | cons z size ih =>
    cases z with
    | some n =>
      simp only [readHeads, Option.bind_eq_bind] at hr
      split at hr
      · cases hr
      · rename_i hn
        simp only [Option.bind_eq_some_iff, Option.some.injEq] at hr
        obtain ⟨rest, hr, rfl⟩ := hr
        simp only [cut, Option.bind_eq_bind, Option.bind_eq_some_iff, Option.some.injEq] at h
        obtain ⟨ys, hy, rfl⟩ := h
        obtain ⟨h1, h2, h3, h4, h5⟩ := ih hr hy
        have hl : (rs.take n).length = n := by rw [List.length_take]; omega
        refine ⟨by simp [h1], ?_, h3, ?_, ?_⟩
        · simp only [parts] at h2
          simp [parts, headLength, headSize, h2]
          omega
        · simp only [parts] at h4
          simp [parts, heads, headBytes, firstOffset, h4]
        · simp only [parts] at h5
          simp [parts, tails, firstOffset, h5]
    | none =>
      simp only [readHeads, Option.bind_eq_bind] at hr
      split at hr
      · cases hr
      · simp only [Option.bind_eq_some_iff, Option.some.injEq] at hr
        obtain ⟨rest, hr, rfl⟩ := hr
        simp only [cut, Option.bind_eq_bind] at h
        split at h
        · cases h
        · rename_i hc
          simp only [Option.bind_eq_some_iff, Option.some.injEq] at h
          obtain ⟨ys, hy, rfl⟩ := h
          obtain ⟨h1, h2, h3, h4, h5⟩ := ih hr hy
          generalize ofLeBytes (rs.take 4) = o at *
          have hx : ((bs.take (firstOffset bs.length rest)).drop o).length =
              firstOffset bs.length rest - o := by
            rw [List.length_drop, List.length_take]; omega
          have ho : o + (firstOffset bs.length rest - o) = firstOffset bs.length rest := by omega
          refine ⟨by simp [h1], ?_, ?_, ?_, ?_⟩
          · simp only [parts] at h2
            simp [parts, headLength, headSize, h2]
          · simp only [firstOffset]; omega
          · simp only [parts] at h4
            simp only [parts, List.zipWith_cons_cons, heads, headBytes, firstOffset,
              Option.isSome_none, Bool.false_eq_true, if_false, hx, ho, h4]
          · simp only [parts] at h5
            simp only [parts, List.zipWith_cons_cons, tails, firstOffset, Option.isSome_none,
              Bool.false_eq_true, if_false, h5]
            rw [List.drop_take]
            have : bs.drop (firstOffset bs.length rest) =
                (bs.drop o).drop (firstOffset bs.length rest - o) := by
              rw [List.drop_drop, ho]
            rw [this, List.take_append_drop]

theorem takeApart_some {size : List (Option Nat)} {bs : List UInt8} {xs : List (List UInt8)}
    (h : takeApart size bs = some xs) (hl : bs.length < 2 ^ 32) :
    xs.length = size.length ∧ compose (parts size xs) = some bs := by
  unfold takeApart at h
  simp only [Option.bind_eq_bind, Option.bind_eq_some_iff] at h
  obtain ⟨its, hr, h⟩ := h
  split at h
  · simp at h
  · rename_i ho
    simp only [ne_eq, Decidable.not_not] at ho
    obtain ⟨h1, h2, -, h4, h5⟩ := cut_some hr h
    obtain ⟨-, h6⟩ := readHeads_some hr
    refine ⟨h1, ?_⟩
    have e : heads (headLength (parts size xs)) (parts size xs) ++ tails (parts size xs) = bs := by
      rw [h2, h5]
      rw [ho] at h4 ⊢
      rw [h4, h6, List.take_append_drop]
    unfold compose
    simp only
    rw [e, if_pos hl]

theorem parts_replicate {k : Nat} {size : Option Nat} {xs : List (List UInt8)}
    (h : xs.length = k) :
    parts (List.replicate k size) xs = xs.map fun x => ⟨size.isSome, x⟩ := by
  induction k generalizing xs with
  | zero => cases xs with
    | nil => rfl
    | cons => simp at h
  | succ k ih => cases xs with
    | nil => simp at h
    | cons x xs =>
      have := ih (xs := xs) (by simpa using h)
      simp only [parts] at this
      simp [parts, List.replicate_succ, this]

theorem elementSizes_some {size : Option Nat} {bs : List UInt8} {l : List (Option Nat)}
    (h : elementSizes size bs = some l) : ∃ k, l = List.replicate k size := by
  unfold elementSizes at h
  split at h
  · split at h
    · cases h
    · cases h; exact ⟨_, rfl⟩
  · split at h
    · cases h; exact ⟨0, rfl⟩
    · simp only at h
      split at h
      · cases h
      · cases h; exact ⟨_, rfl⟩

/-- Nothing that is cut out is longer than the whole. -/
theorem part_le {ps : List Part} {bs : List UInt8} (h : compose ps = some bs) {p : Part}
    (hp : p ∈ ps) : p.bytes.length ≤ bs.length := by
  rw [compose_length h]
  have := le_sum_of_mem (List.mem_map_of_mem
    (f := fun p : Part => (if p.fixed then 0 else 4) + p.bytes.length) hp)
  omega

theorem collect_some {α : Type} {l : Len} {xs : List α} {v : {xs : List α // l.ok xs.length = true}}
    (h : collect l xs = some v) : v.val = xs := by
  unfold collect at h
  split at h
  · cases h; rfl
  · cases h

theorem fixed_flat (o : Nat) (xs : List (List UInt8)) :
    heads o (xs.map fun x => ⟨true, x⟩) ++ tails (xs.map fun x => ⟨true, x⟩) = xs.flatten := by
  induction xs with
  | nil => rfl
  | cons x xs ih =>
    simp only [List.map_cons, heads, tails, if_true, List.flatten_cons, List.append_assoc, ih]

mutual

theorem ser_de : (s : Schema) → {bs : List UInt8} → bs.length < 2 ^ 32 → {v : s.Val} →
    de s bs = some v → ser s v = some bs
  | .int b, bs, hl, v, h => by
    simp only [de] at h
    simp only [ser, deInt_some h]
  | .num b, bs, hl, v, h => by
    simp only [de] at h
    simp only [ser, deInt_some h]
  | .bool, [], hl, v, h => by simp [de] at h
  | .bool, [b], hl, v, h => by
    simp only [de] at h
    split at h
    · rename_i hb
      cases h
      simp [ser, hb]
    · split at h
      · rename_i hb
        cases h
        simp [ser, hb]
      · cases h
  | .bool, _ :: _ :: _, hl, v, h => by simp [de] at h
  | .text, bs, hl, v, h => by simp [de] at h
  | .tag _, bs, hl, v, h => by simp [de] at h
  | .bytes n, bs, hl, v, h => by
    simp only [de] at h
    split at h
    · cases h; rfl
    · cases h
  | .byteList n, bs, hl, v, h => by
    simp only [de] at h
    split at h
    · cases h; rfl
    · cases h
  | .bitvector n, bs, hl, v, h => by
    simp only [de, Option.bind_eq_bind, Option.bind_eq_some_iff] at h
    obtain ⟨bits, hb, h⟩ := h
    split at h
    · cases h
      simp only [ser, bitvector_some hb]
    · cases h
  | .bitlist n, bs, hl, v, h => by
    simp only [de, Option.bind_eq_bind, Option.bind_eq_some_iff] at h
    obtain ⟨bits, hb, h⟩ := h
    split at h
    · cases h
      simp only [ser, bitlist_some hb]
    · cases h
  | .ints b l, bs, hl, v, h => by
    simp only [de, Option.bind_eq_bind, Option.bind_eq_some_iff] at h
    obtain ⟨sz, hsz, xs, hx, ys, hy, hc⟩ := h
    obtain ⟨k, rfl⟩ := elementSizes_some hsz
    obtain ⟨h1, h2⟩ := takeApart_some hx hl
    rw [parts_replicate (by simpa using h1)] at h2
    obtain ⟨e, -, -⟩ := compose_some h2
    simp only [Option.isSome_some] at e
    rw [fixed_flat] at e
    have hb := collect_some hc
    have hm : ys.mapM (fun y => some (leBytes (width b) y.val)) = some xs :=
      mapM_back hy fun x _ y hxy => by rw [deInt_some hxy]
    have hm' : ∀ (ys : List (Fin b)) {xs : List (List UInt8)},
        ys.mapM (fun y => some (leBytes (width b) y.val)) = some xs →
        ys.flatMap (fun y => leBytes (width b) y.val) = xs.flatten := by
      intro ys
      induction ys with
      | nil => intro xs h; cases h; rfl
      | cons y ys ih =>
        intro xs h
        simp only [List.mapM_cons, Option.bind_eq_bind, Option.bind_eq_some_iff, Option.pure_def,
          Option.some.injEq] at h
        obtain ⟨_, rfl, zs, hz, rfl⟩ := h
        simp [ih hz]
    simp only [ser, Option.some.injEq]
    rw [hb, hm' ys hm, ← e]
  | .seq l s, bs, hl, v, h => by
    simp only [de, Option.bind_eq_bind, Option.bind_eq_some_iff] at h
    obtain ⟨sz, hsz, xs, hx, ys, hy, hc⟩ := h
    obtain ⟨k, rfl⟩ := elementSizes_some hsz
    obtain ⟨h1, h2⟩ := takeApart_some hx hl
    rw [parts_replicate (by simpa using h1)] at h2
    have hb := collect_some hc
    have hm : ys.mapM (fun y => ser s y) = some xs := mapM_back hy fun x hxm y hxy =>
      ser_de s (Nat.lt_of_le_of_lt
        (part_le h2 (p := ⟨(fixedSize s).isSome, x⟩) (List.mem_map_of_mem hxm)) hl) hxy
    simp only [ser, Option.bind_eq_bind, hb, hm, Option.bind_some, h2]
  | .record fs, bs, hl, v, h => by
    simp only [de, Option.bind_eq_bind, Option.bind_eq_some_iff] at h
    obtain ⟨xs, hx, h⟩ := h
    obtain ⟨h1, h2⟩ := takeApart_some hx hl
    have := sers_des fs (xs := xs) (v := v) (fun x hxm => by
      have : ∃ z, (⟨z, x⟩ : Part) ∈ parts (fieldSizes fs) xs := by
        obtain ⟨i, hi, rfl⟩ := List.mem_iff_getElem.1 hxm
        refine ⟨((fieldSizes fs)[i]'(by omega)).isSome, List.mem_iff_getElem.2 ⟨i, ?_, ?_⟩⟩
        · simp only [parts, List.length_zipWith]; omega
        · simp only [parts, List.getElem_zipWith]
      obtain ⟨z, hz⟩ := this
      exact Nat.lt_of_le_of_lt (part_le h2 hz) hl) h
    simp only [ser, Option.bind_eq_bind, this, Option.bind_some, h2]

theorem sers_des : (fs : Fields) → {xs : List (List UInt8)} → {v : fs.Val} →
    (∀ x ∈ xs, x.length < 2 ^ 32) → des fs xs = some v →
    sers fs v = some (parts (fieldSizes fs) xs)
  | .nil, [], v, hl, h => rfl
  | .nil, _ :: _, v, hl, h => by simp [des] at h
  | .cons _ s rest, [], v, hl, h => by simp [des] at h
  | .cons _ s rest, x :: xs, v, hl, h => by
    simp only [des, Option.bind_eq_bind, Option.bind_eq_some_iff, Option.some.injEq] at h
    obtain ⟨a, ha, as, has, rfl⟩ := h
    have h1 := ser_de s (hl x List.mem_cons_self) ha
    have h2 := sers_des rest (fun y hy => hl y (List.mem_cons_of_mem _ hy)) has
    simp only [parts] at h2
    simp only [sers, h1, h2, Option.bind_eq_bind, Option.bind_some, fieldSizes, parts,
      List.zipWith_cons_cons]

end

end Verif.Ssz
