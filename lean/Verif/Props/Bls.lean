import Mathlib.Data.ZMod.Basic
import Verif.Proofs.Bls

/-! # C75: signatures -/

namespace Verif.Props

open Spec Bls

variable {C : Curve}

/-- **C75** The only signature that a key pair's public key accepts for a message is the one that the
secret key makes. -/
theorem C75_verify_iff (h : SoundCurve C) (sk : SecretKey C) (m s : Bytes) :
    verify_signature C (public_key C sk) m s = .ok () ↔ s = sign C sk m := by
  rw [verify_ok h]
  obtain ⟨k1, k2, k3⟩ := key_point h sk
  have e : C.pairing (sk.val • C.generator) (C.hash_to m) =
      C.pairing C.generator (sk.val • C.hash_to m) := by
    rw [pairing_nsmul_left h h.generator_mem (h.hash_mem _),
      pairing_nsmul_right h h.generator_mem (h.hash_mem _)]
  constructor
  · rintro ⟨p, q, hp, -, -, rfl, hq, hv⟩
    rw [k1] at hp
    cases hp
    rw [e] at hv
    rw [← pairing_inj h (C.S2.nsmul_mem (h.hash_mem _) _) hq hv]
    rfl
  · rintro rfl
    exact ⟨_, _, k1, k2, k3, rfl, C.S2.nsmul_mem (h.hash_mem _) _, e⟩

/-- **C75** Whatever the public key, and whether or not anybody knows its secret key, at most one
signature is accepted for a message. -/
theorem C75_unique (h : SoundCurve C) (pk m s s' : Bytes)
    (hs : verify_signature C pk m s = .ok ()) (hs' : verify_signature C pk m s' = .ok ()) :
    s = s' := by
  obtain ⟨p, q, hp, -, -, rfl, hq, hv⟩ := (verify_ok h).1 hs
  obtain ⟨p', q', hp', -, -, rfl, hq', hv'⟩ := (verify_ok h).1 hs'
  rw [hp] at hp'
  cases hp'
  rw [pairing_inj h hq hq' (hv.symm.trans hv')]

/-- **C75** A signature made for one object and domain is accepted for another object and domain only
if the two signing roots are hashed to the same point. -/
theorem C75_domains (h : SoundCurve C) (hash : Bytes → Bytes → Bytes) (sk : SecretKey C)
    (root domain root' domain' : Bytes) :
    verify_signed_data C hash root (sign_with_domain C hash root' sk domain') (public_key C sk)
      domain = .ok () ↔ C.hash_to (hash root domain) = C.hash_to (hash root' domain') := by
  unfold verify_signed_data sign_with_domain compute_signing_root
  rw [C75_verify_iff h]
  unfold sign
  constructor
  · intro e
    have e1 := compress2_inj h e
    have e2 : sk.val • (C.hash_to (hash root' domain') - C.hash_to (hash root domain)) = 0 := by
      rw [nsmul_sub, e1, sub_self]
    exact (sub_eq_zero.1 (key_cancel h sk (C.S2.sub_mem (h.hash_mem _) (h.hash_mem _)) e2)).symm
  · intro e
    rw [e]

/-- **C75** Signatures are aggregated unless there are none. -/
theorem C75_aggregate (h : SoundCurve C) (l : List (SecretKey C × Bytes)) :
    (∃ s, aggregate C (l.map fun x => sign C x.1 x.2) = .ok s) ↔ l ≠ [] := by
  constructor
  · rintro ⟨s, hs⟩ rfl
    exact ((aggregate_ok h).1 hs).1 rfl
  · exact fun hl => ⟨_, aggregate_signs h l hl⟩

/-- **C75** The only signature accepted for several keys on one message is the aggregate of their
signatures; if the keys add up to zero, none is. -/
theorem C75_fast_aggregate_iff (h : SoundCurve C) (sks : List (SecretKey C)) (m s : Bytes) :
    fast_aggregate_verify C (sks.map (public_key C)) m s = .ok () ↔
      aggregate C (sks.map fun sk => sign C sk m) = .ok s ∧
      ¬ C.r ∣ (sks.map fun sk => sk.val).sum := by
  have ha := aggregate_signs h (sks.map fun sk => (sk, m))
  simp only [List.map_map, Function.comp_def, ne_eq, List.map_eq_nil_iff] at ha
  rw [fast_ok h]
  simp only [keys_points h, ne_eq, List.map_eq_nil_iff]
  constructor
  · rintro ⟨h1, ps, q, rfl, h2, rfl, hq, hv⟩
    rw [sum_points, h.generator_order] at h2
    rw [sum_points] at hv
    refine ⟨?_, h2⟩
    rw [ha h1, sum_sigs]
    rw [pairing_nsmul_left h h.generator_mem (h.hash_mem _),
      ← pairing_nsmul_right h h.generator_mem (h.hash_mem _)] at hv
    rw [pairing_inj h (C.S2.nsmul_mem (h.hash_mem _) _) hq hv]
  · rintro ⟨h1, h2⟩
    have hne : sks ≠ [] := by
      rintro rfl
      exact h2 (by simp)
    rw [ha hne, sum_sigs] at h1
    cases h1
    refine ⟨hne, _, _, rfl, ?_, rfl, C.S2.nsmul_mem (h.hash_mem m) _, ?_⟩
    · rw [sum_points, h.generator_order]; exact h2
    · rw [sum_points, pairing_nsmul_left h h.generator_mem (h.hash_mem _),
        pairing_nsmul_right h h.generator_mem (h.hash_mem _)]

/-- **C75** The only signature accepted for several keys, each with its own message, is the aggregate
of their signatures. -/
theorem C75_aggregate_verify_iff (h : SoundCurve C) (l : List (SecretKey C × Bytes)) (s : Bytes) :
    aggregate_verify C (l.map fun x => public_key C x.1) (l.map fun x => x.2) s = .ok () ↔
      aggregate C (l.map fun x => sign C x.1 x.2) = .ok s := by
  rw [aggregate_verify_ok h]
  have e : (l.map fun x => public_key C x.1) = (l.map (·.1)).map (public_key C) := by simp
  rw [e]
  simp only [keys_points h, ne_eq, List.map_eq_nil_iff, List.length_map, true_and]
  have ep : (List.map (fun sk => sk.val • C.generator) (l.map fun x => x.1)) =
      l.map fun x => x.1.val • C.generator := by simp
  have hsum : (l.map fun x => x.1.val • C.hash_to x.2).sum ∈ C.S2 :=
    C.S2.list_sum_mem fun q hq => by
      obtain ⟨y, -, rfl⟩ := List.mem_map.1 hq
      exact C.S2.nsmul_mem (h.hash_mem _) _
  constructor
  · rintro ⟨h1, ps, q, rfl, rfl, hq, hv⟩
    rw [ep, prod_pairings h] at hv
    rw [aggregate_signs h l h1, pairing_inj h hsum hq hv]
  · intro ha
    have hne : l ≠ [] := by
      rintro rfl
      exact ((aggregate_ok h).1 ha).1 rfl
    rw [aggregate_signs h l hne] at ha
    cases ha
    exact ⟨hne, _, _, rfl, rfl, hsum, by rw [ep, prod_pairings h]⟩

/-- **C75** Keys and messages of different numbers are never accepted. -/
theorem C75_aggregate_verify_lengths (h : SoundCurve C) (pks msgs : List Bytes) (s : Bytes)
    (hv : aggregate_verify C pks msgs s = .ok ()) : pks ≠ [] ∧ msgs.length = pks.length := by
  obtain ⟨h1, h2, -⟩ := (aggregate_verify_ok h).1 hv
  exact ⟨h1, h2⟩

/-- **C75** Checking an aggregate against several keys is checking it against their aggregate. -/
theorem C75_aggregate_key (h : SoundCurve C) (pks : List Bytes) (m s : Bytes) :
    fast_aggregate_verify C pks m s = .ok () ↔
      ∃ pk, eth_aggregate_public_keys C pks = .ok pk ∧ verify_signature C pk m s = .ok () := by
  have ka : ∀ pk, eth_aggregate_public_keys C pks = .ok pk ↔ pks ≠ [] ∧ ∃ ps : List C.P1,
      List.Forall₂ (fun pk p => C.uncompress1 pk = some p ∧ p ≠ 0 ∧ p ∈ C.S1) pks ps ∧
      pk = C.compress1 ps.sum := by
    intro pk
    unfold eth_aggregate_public_keys
    by_cases hp : pks = []
    · simp [hp, bind, Except.bind, throw, throwThe, MonadExceptOf.throw]
    · have e1 : pks.isEmpty = false := by simpa using hp
      simp only [e1, Bool.false_eq_true, ↓reduceIte, bind_ok, mapM_ok, key_validate_ok, ne_eq, hp,
        not_false_eq_true, true_and]
      have kv : ∀ {pks : List Bytes} {ps : List C.P1},
          List.Forall₂ (fun pk p => C.uncompress1 pk = some p ∧ p ≠ 0 ∧ p ∈ C.S1) pks ps →
          ps.forM (fun p => validate C p) = .ok () := by
        intro pks ps hf
        induction hf with
        | nil => rfl
        | cons hx _ ih =>
          rw [List.forM_eq_forM, List.forM_cons, validate_ok.2 hx.2]
          exact ih
      have kb : ∀ ps : List C.P1,
          List.Forall₂ (fun pk p => C.uncompress1 pk = some p ∧ p ≠ 0 ∧ p ∈ C.S1) pks ps →
          blst_aggregate_keys C ps true = .ok ps.sum := by
        intro ps hf
        unfold blst_aggregate_keys
        have : ps.isEmpty = false := by
          cases hf with
          | nil => exact absurd rfl hp
          | cons => rfl
        simp only [this, Bool.false_eq_true, ↓reduceIte, kv hf]
        rfl
      constructor
      · rintro ⟨ps, hps, t, ht, e⟩
        rw [kb ps hps] at ht
        cases ht
        cases e
        exact ⟨ps, hps, rfl⟩
      · rintro ⟨ps, hps, rfl⟩
        exact ⟨ps, hps, _, kb ps hps, rfl⟩
  have km : ∀ {pks : List Bytes} {ps : List C.P1},
      List.Forall₂ (fun pk p => C.uncompress1 pk = some p ∧ p ≠ 0 ∧ p ∈ C.S1) pks ps →
      ∀ p ∈ ps, p ∈ C.S1 := by
    intro pks ps hf
    induction hf with
    | nil => simp
    | cons hx _ ih =>
      intro p hp
      rcases List.mem_cons.1 hp with rfl | hp
      · exact hx.2.2
      · exact ih p hp
  rw [fast_ok h]
  simp only [ka, verify_ok h]
  constructor
  · rintro ⟨h1, ps, q, hps, h2, rfl, hq, hv⟩
    exact ⟨_, ⟨h1, ps, hps, rfl⟩, _, _, h.uncompress1 _, h2, sum_mem1 (km hps), rfl, hq, hv⟩
  · rintro ⟨pk, ⟨h1, ps, hps, rfl⟩, p, q, hp, h2, -, rfl, hq, hv⟩
    rw [h.uncompress1] at hp
    cases hp
    exact ⟨h1, ps, q, hps, h2, rfl, hq, hv⟩

/-- **C75** With the rule for sync committees, nobody's signature is the point at infinity, and with
somebody the rule changes nothing. -/
theorem C75_eth_fast_aggregate_iff (h : SoundCurve C) (pks : List Bytes) (m s : Bytes) :
    eth_fast_aggregate_verify C pks m s = .ok () ↔
      (pks = [] ∧ s = C.compress2 0) ∨ fast_aggregate_verify C pks m s = .ok () := by
  unfold eth_fast_aggregate_verify is_infinity
  rw [h.infinity]
  by_cases hp : pks = [] ∧ s = INFINITY_COMPRESSED_SIGNATURE
  · obtain ⟨rfl, rfl⟩ := hp
    simp
  · rw [if_neg]
    · simp [hp]
    · simpa using hp

/-- **C75** The order of the signatures and of the keys does not matter. -/
theorem C75_order (h : SoundCurve C) (ss ss' : List Bytes) (hp : ss.Perm ss') (s : Bytes) :
    aggregate C ss = .ok s ↔ aggregate C ss' = .ok s := by
  have key : ∀ {ss ss' : List Bytes}, ss.Perm ss' → aggregate C ss = .ok s →
      aggregate C ss' = .ok s := by
    intro ss ss' hp hs
    obtain ⟨h1, qs, rfl, hq, rfl⟩ := (aggregate_ok h).1 hs
    have hn : ss' ≠ [] := by
      rintro rfl
      exact h1 hp.eq_nil
    refine (aggregate_ok h).2 ⟨hn, ?_⟩
    have : ∃ qs' : List C.P2, ss' = qs'.map C.compress2 ∧ qs.Perm qs' := by
      have e1 : ∀ l : List Bytes, (∀ x ∈ l, ∃ q, x = C.compress2 q) →
          l = (l.filterMap C.uncompress2).map C.compress2 := by
        intro l hl
        induction l with
        | nil => rfl
        | cons x l ih =>
          obtain ⟨q, rfl⟩ := hl x List.mem_cons_self
          rw [List.filterMap_cons, (h.uncompress2 _ q).2 rfl]
          simp only [List.map_cons]
          rw [← ih fun y hy => hl y (List.mem_cons_of_mem _ hy)]
      have e2 : ∀ l : List C.P2, (l.map C.compress2).filterMap C.uncompress2 = l := by
        intro l
        induction l with
        | nil => rfl
        | cons q l ih => rw [List.map_cons, List.filterMap_cons, (h.uncompress2 _ q).2 rfl, ih]
      refine ⟨_, e1 ss' fun x hx => ?_, by simpa only [e2] using hp.filterMap C.uncompress2⟩
      obtain ⟨q, -, rfl⟩ := List.mem_map.1 (hp.mem_iff.2 hx)
      exact ⟨q, rfl⟩
    obtain ⟨qs', e, hqs'⟩ := this
    exact ⟨qs', e, fun q hq' => hq q (hqs'.mem_iff.2 hq'), by rw [hqs'.sum_eq]⟩
  exact ⟨key hp, key hp.symm⟩

/-! ## A concrete case -/

/-- The encoding of the five points of the toy curve -/
def toyEncode (q : ZMod 5) : Bytes :=
  if q = 0 then INFINITY_COMPRESSED_SIGNATURE else [UInt8.ofNat q.val]

/-- A toy curve: the integers modulo five with multiplication for a pairing -/
def toyCurve : Curve where
  P1 := ZMod 5
  P2 := ZMod 5
  T := Multiplicative (ZMod 5)
  S1 := ⊤
  S2 := ⊤
  mem1 := fun _ => isTrue trivial
  mem2 := fun _ => isTrue trivial
  r := 5
  generator := 1
  pairing p q := Multiplicative.ofAdd (p * q)
  hash_to m := (m.length : ZMod 5)
  compress1 := toyEncode
  compress2 := toyEncode
  uncompress1 b := [0, 1, 2, 3, 4].find? fun q => toyEncode q = b
  uncompress2 b := [0, 1, 2, 3, 4].find? fun q => toyEncode q = b

theorem toy_decode (b : Bytes) (q : ZMod 5) :
    ([0, 1, 2, 3, 4] : List (ZMod 5)).find? (fun q => toyEncode q = b) = some q ↔
      toyEncode q = b := by
  constructor
  · intro h
    simpa using List.find?_some h
  · rintro rfl
    revert q
    decide +kernel

/-- It meets the assumptions. -/
theorem toy_sound : SoundCurve toyCurve where
  prime := by decide
  generator_mem := trivial
  hash_mem _ := trivial
  generator_order k := by
    show k • (1 : ZMod 5) = 0 ↔ 5 ∣ k
    rw [nsmul_one]
    exact ZMod.natCast_eq_zero_iff k 5
  torsion q _ := (by decide : ∀ q : ZMod 5, 5 • q = 0) q
  add_left p _ p' _ q _ := congrArg Multiplicative.ofAdd (add_mul (R := ZMod 5) p p' q)
  add_right p _ q _ q' _ := congrArg Multiplicative.ofAdd (mul_add (R := ZMod 5) p q q')
  nondegenerate q _ e := (by decide : ∀ q : ZMod 5, 1 * q = 0 → q = 0) q e
  uncompress1 p := (toy_decode _ p).2 rfl
  uncompress2 b q := toy_decode b q
  infinity := rfl

/-- Two keys -/
def toyKey (k : Nat) (h : 0 < k ∧ k < 5) : SecretKey toyCurve := ⟨k, h⟩

/-- Their signatures on a message of three bytes are 3·2 = 1 and 3·4 = 2 modulo 5; the aggregate is 3,
and the two keys accept it. -/
example : sign toyCurve (toyKey 2 (by decide)) [7, 7, 7] = [1] ∧
    sign toyCurve (toyKey 4 (by decide)) [7, 7, 7] = [2] ∧
    aggregate toyCurve [[1], [2]] = .ok [3] ∧
    fast_aggregate_verify toyCurve [public_key toyCurve (toyKey 2 (by decide)),
      public_key toyCurve (toyKey 4 (by decide))] [7, 7, 7] [3] = .ok () ∧
    fast_aggregate_verify toyCurve [public_key toyCurve (toyKey 2 (by decide)),
      public_key toyCurve (toyKey 4 (by decide))] [7, 7, 7] [1] = .error .InvalidSignature := by
  decide +kernel

/-- Keys 2 and 3 add up to zero: no signature is accepted for them together. -/
example : 5 ∣ ([toyKey 2 (by decide), toyKey 3 (by decide)].map fun sk => sk.val).sum := by
  decide +kernel

/-- Nobody's signature -/
example : eth_fast_aggregate_verify toyCurve [] [7] INFINITY_COMPRESSED_SIGNATURE = .ok () ∧
    fast_aggregate_verify toyCurve [] [7] INFINITY_COMPRESSED_SIGNATURE =
      .error .InvalidSignature := by
  decide +kernel

end Verif.Props
