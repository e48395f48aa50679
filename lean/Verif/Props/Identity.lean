import Verif.Proofs.Identity
import Verif.Props.Ledger
import Verif.Props.Registry
import Verif.Props.Deposits

/-! # C89: a public key is one validator, for ever -/

namespace Verif.Props

open Spec

variable {E : Env} {f : Fork} {s s' : State}

theorem hasKey_iff {i : Nat} {k : PublicKey} : HasKey s i k ↔ (keysOf s)[i]? = some k := by
  unfold HasKey keysOf
  rw [List.getElem?_map, Option.map_eq_some_iff]

theorem distinct_index (h : DistinctKeys s) {i j : Nat} {k : PublicKey} (hi : HasKey s i k)
    (hj : HasKey s j k) : i = j := by
  rw [hasKey_iff] at hi hj
  have hd := List.nodup_iff_getElem?_ne_getElem?.1 h
  rcases Nat.lt_trichotomy i j with hl | hl | hl
  · exact absurd (hi.trans hj.symm) (hd i j hl (List.getElem?_eq_some_iff.1 hj).1)
  · exact hl
  · exact absurd (hj.trans hi.symm) (hd j i hl (List.getElem?_eq_some_iff.1 hi).1)

/-- **C89** In every state reachable from genesis, by any sequence of successful or failing calls and
fork upgrades, no two validators have the same key. -/
theorem C89_one_validator_per_key (h : Reachable E f s) (i j : Nat) (k : PublicKey)
    (hi : HasKey s i k) (hj : HasKey s j k) : i = j :=
  distinct_index (reachable_key h) hi hj

/-- **C89** And a validator keeps its index and its key for ever, across forks: whatever is done to
the state, `k` is the key of validator `i` and of no other. -/
theorem C89_for_ever {g : Fork} (h : Reachable E f s) (h' : Onwards E f s g s') (i : Nat)
    (k : PublicKey) (hi : HasKey s i k) : HasKey s' i k ∧ ∀ j, HasKey s' j k → j = i := by
  obtain ⟨hp, hd⟩ := onward_key h'
  have hi' : HasKey s' i k := by
    rw [hasKey_iff] at hi ⊢
    obtain ⟨l, hl⟩ := hp
    unfold keysOf at *
    rw [← hl, List.getElem?_append_left (List.getElem?_eq_some_iff.1 hi).1]
    exact hi
  exact ⟨hi', fun j hj => distinct_index (hd (reachable_key h)) hj hi'⟩

/-- **C89** Time brings no new validators: neither slots nor epochs nor forks change the list of
keys. -/
theorem C89_slots (t : Nat) : keysOf (finalState (process_slots E f t) s) = keysOf s :=
  slots_same.final s

theorem C89_upgrade {g : Fork} (h : upgrade_to E g s = .ok s') : keysOf s' = keysOf s :=
  upgrade_key h

/-- **C89** From altair on every member of the current and of the next sync committee is a
validator, and only one. -/
theorem C89_members (h : Reachable E f s) (hf : f ≠ .Phase0) (k : PublicKey)
    (hk : k ∈ s.current_sync_committee.public_keys ++ s.next_sync_committee.public_keys) :
    ∃ i, HasKey s i k ∧ ∀ j, HasKey s j k → j = i := by
  obtain ⟨v, hv, he⟩ := reachable_sit h hf k hk
  obtain ⟨i, hi⟩ := List.getElem?_of_mem hv
  exact ⟨i, ⟨v, hi, he⟩, fun j hj => distinct_index (reachable_key h) hj ⟨v, hi, he⟩⟩

/-! ## What a block adds -/

/-- The keys in the books. -/
def bookKeys (B : Book) : List PublicKey := B.accounts.map (·.key)

theorem modify_keys {l : List Account} {i : Nat} {g : Account → Account}
    (h : ∀ a, (g a).key = a.key) : (l.modify i g).map (·.key) = l.map (·.key) := by
  apply List.ext_getElem?
  intro n
  rw [List.getElem?_map, List.getElem?_map, List.getElem?_modify]
  cases l[n]? with
  | none => rfl
  | some a =>
    simp only [Option.map_some, Option.map_eq_map]
    split
    · rw [h]
    · rfl

theorem credit_keys {B : Book} {i x : Nat} : bookKeys (B.credit i x) = bookKeys B :=
  modify_keys fun _ => rfl

theorem debit_keys {B : Book} {i x : Nat} : bookKeys (B.debit i x) = bookKeys B :=
  modify_keys fun _ => rfl

theorem fold_keys {α : Type} {k : Book → α → Book} (h : ∀ B x, bookKeys (k B x) = bookKeys B)
    (l : List α) (B : Book) : bookKeys (l.foldl k B) = bookKeys B := by
  induction l generalizing B with
  | nil => rfl
  | cons x l ih => rw [List.foldl_cons, ih, h]

theorem compound_keys {B : Book} {i : Nat} {a : Account} (h : B.accounts[i]? = some a) :
    bookKeys (B.compound E i a) = bookKeys B := by
  unfold bookKeys Book.compound
  dsimp only
  rw [List.map_set]
  exact set_self (by rw [List.getElem?_map, h]; rfl)

theorem enrol_old {keys : List PublicKey} {d : DepositData}
    (h : d.public_key ∈ keys ∨ ¬ DepositSigned E d) : enrol E keys d = keys :=
  if_neg fun ⟨h1, h2⟩ => h.elim h1 fun h => h h2

theorem deposit_keys {B : Book} {d : DepositData} :
    bookKeys (B.deposit E f d) = enrol E (bookKeys B) d := by
  unfold Book.deposit
  have hin : ∀ i, B.accounts.findIdx? (·.key = d.public_key) = some i →
      d.public_key ∈ bookKeys B := by
    intro i hi
    obtain ⟨a, ha, -⟩ := List.findIdx?_eq_some_iff_getElem.1 hi
    exact List.mem_map.2 ⟨B.accounts[i], List.getElem_mem _, by simpa using ha⟩
  split
  · rename_i hn
    have hk : d.public_key ∉ bookKeys B := by
      intro hm
      obtain ⟨a, ha, hk⟩ := List.mem_map.1 hm
      have := List.findIdx?_eq_none_iff.1 hn a ha
      simp [hk] at this
    by_cases hs : DepositSigned E d
    · rw [if_neg (not_not.2 hs), show enrol E (bookKeys B) d = bookKeys B ++ [d.public_key] from
        if_pos ⟨hk, hs⟩]
      split <;> simp [bookKeys]
    · rw [if_pos hs, enrol_old (.inr hs)]
  · rename_i i hi
    rw [enrol_old (.inl (hin i hi))]
    split
    · split
      · rename_i a ha
        split
        · exact compound_keys (B := { B with queue := _ }) ha
        · rfl
      · rfl
    · exact credit_keys

theorem execution_keys {B : Book} {i : Nat} : bookKeys (B.toExecution i) = bookKeys B :=
  modify_keys fun _ => rfl

theorem deposits_keys {ds : List DepositData} {B : Book} :
    bookKeys (ds.foldl (Book.deposit E f) B) = ds.foldl (enrol E) (bookKeys B) := by
  induction ds generalizing B with
  | nil => rfl
  | cons d ds ih => rw [List.foldl_cons, List.foldl_cons, ih, deposit_keys]

theorem book_keys (h : s.balances.length = s.validators.length) :
    bookKeys (bookOf s) = keysOf s := by
  unfold bookKeys bookOf keysOf
  dsimp only
  rw [List.map_zipWith]
  apply List.ext_getElem?
  intro n
  rw [List.getElem?_zipWith, List.getElem?_map]
  cases hv : s.validators[n]? with
  | none => rfl
  | some v =>
    have hn := (List.getElem?_eq_some_iff.1 hv).1
    obtain ⟨x, hx⟩ : ∃ x, s.balances[n]? = some x :=
      ⟨_, List.getElem?_eq_getElem (by omega)⟩
    rw [hx]
    rfl

/-- **C89** A block brings in exactly the keys of those of its deposits, in their order, that are
signed with a key that is new; no others. -/
theorem C89_registration {b : BeaconBlock} (hE : SaneConfig E) (hmax : 0 < E.max_deposits)
    (hV : E.min_seed_lookahead + 3 < E.epochs_per_historical_vector)
    (hslot : s.slot < 2 ^ 63) (hreg : s.validators.length ≤ 2 ^ 40) (hpar : Parallel f s)
    (h : process_block E f b s = .ok () s') :
    keysOf s' = (depositsOf f b.body).foldl (enrol E) (keysOf s) := by
  obtain ⟨rewards, seats, -, -, h1⟩ := C88_ledger hE hmax hV hslot hreg hpar h
  have hpar' : Parallel f s' :=
    (C12_calls_keep_lengths E f s s' (by
      have := History.call (E := E) (f := f) (s := s) .start (.process_block b)
      rwa [show finalState (process_block E f b) s = s' by unfold finalState; rw [h]] at this)).2.1
      hpar
  rw [← book_keys hpar.1, ← book_keys hpar'.1, h1]
  unfold ledger depositsOf
  dsimp only
  have seat : ∀ (B : Book) (x : Nat × Bool),
      bookKeys (B.seat (syncReward E s) (syncProposerReward E s) b.proposer_index x) =
        bookKeys B := by
    rintro B ⟨i, _ | _⟩
    · exact debit_keys
    · exact credit_keys.trans credit_keys
  have slash : ∀ (B : Book) (i : Nat), bookKeys (B.slash E f s b.proposer_index i) = bookKeys B :=
    fun B i => credit_keys.trans debit_keys
  have opt : ∀ (p : Prop) [Decidable p] (A B : Book), bookKeys A = bookKeys B →
      bookKeys (if p then A else B) = bookKeys B := by
    intro p _ A B h; split
    · exact h
    · rfl
  have opt' : ∀ (p : Prop) [Decidable p] (A B : Book), bookKeys A = bookKeys B →
      bookKeys (if p then B else A) = bookKeys B := by
    intro p _ A B h; split
    · rfl
    · exact h
  rw [opt' _ _ _ (fold_keys seat _ _), List.foldl_append]
  have step : ∀ B : Book, bookKeys B = (b.body.deposits.map (·.data)).foldl (enrol E)
      (bookKeys (bookOf s)) → bookKeys (if f = .Electra then
      (b.body.execution_payload.deposit_receipts.map fun r =>
        (⟨r.public_key, r.withdrawal_credentials, r.amount, r.signature⟩ : DepositData)).foldl
        (Book.deposit E f) B
      else B) = (if f = .Electra then b.body.execution_payload.deposit_receipts.map fun r =>
        (⟨r.public_key, r.withdrawal_credentials, r.amount, r.signature⟩ : DepositData)
      else []).foldl (enrol E) ((b.body.deposits.map (·.data)).foldl (enrol E)
        (bookKeys (bookOf s))) := by
    intro B hB
    split
    · rw [deposits_keys, hB]
    · exact hB
  refine step _ ?_
  rw [opt _ _ _ (fold_keys (fun B c => execution_keys) _ _), deposits_keys,
    opt' _ _ _ (fold_keys (fun B r => credit_keys) _ _), fold_keys slash,
    opt _ _ _ (fold_keys (fun B w => debit_keys) _ _)]

/-- **C89** In particular the seats the sync committee is paid by in a block (C88) are those of the
members in the state before it: seat `n` belongs to the one validator with the `n`-th key. -/
theorem C89_seats {b : BeaconBlock} (hr : Reachable E f s) (hf : f ≠ .Phase0)
    (h : process_block E f b s = .ok () s') (seats : List Nat) (hs : Seats s' seats) (n i : Nat) :
    seats[n]? = some i ↔
      ∃ key, s.current_sync_committee.public_keys[n]? = some key ∧ HasKey s i key := by
  have hc : s'.current_sync_committee = s.current_sync_committee :=
    (block_mod.ok h) .current_sync_committee (by decide)
  have hon : Onwards E f s f s' := by
    have := Onwards.call (E := E) (f := f) (s := s) .start (.process_block b)
    rwa [show finalState (process_block E f b) s = s' by unfold finalState; rw [h]] at this
  obtain ⟨hl, hm⟩ := hs
  rw [hc] at hl hm
  have known : ∀ key, s.current_sync_committee.public_keys[n]? = some key →
      ∃ j, HasKey s j key := fun key hk => by
    obtain ⟨j, hj, -⟩ := C89_members hr hf key
      (List.mem_append_left _ (List.mem_of_getElem? hk))
    exact ⟨j, hj⟩
  constructor
  · intro hi
    obtain ⟨key, hk⟩ : ∃ key, s.current_sync_committee.public_keys[n]? = some key :=
      ⟨_, List.getElem?_eq_getElem (by rw [← hl]; exact (List.getElem?_eq_some_iff.1 hi).1)⟩
    refine ⟨key, hk, ?_⟩
    obtain ⟨v, hv, he, -⟩ := hm n key i hk hi
    obtain ⟨j, hj⟩ := known key hk
    rw [(C89_for_ever hr hon j key hj).2 i ⟨v, hv, he⟩]
    exact hj
  · rintro ⟨key, hk, hi⟩
    obtain ⟨j, hj⟩ : ∃ j, seats[n]? = some j :=
      ⟨_, List.getElem?_eq_getElem (by rw [hl]; exact (List.getElem?_eq_some_iff.1 hk).1)⟩
    obtain ⟨v, hv, he, -⟩ := hm n key j hk hj
    rw [hj, (C89_for_ever hr hon i key hi).2 j ⟨v, hv, he⟩]

/-! ## Examples -/

/-- The genesis of C11: four validators and a committee of them. -/
example : (genesisState.toOption.map fun s =>
      (keysOf s, s.current_sync_committee.public_keys.all (· ∈ keysOf s),
        s.current_sync_committee.public_keys.length)) =
    some ([0, 1, 2, 3].map Toy.pk, true, 32) := by decide +kernel

/-- It is reachable, and bellatrix states follow on it. -/
example (s s' : State) (h : genesisState = .ok s)
    (h' : upgrade_to genesisEnv .Bellatrix
      (finalState (process_slots genesisEnv .Altair 8) s) = .ok s') :
    Reachable genesisEnv .Altair s ∧ Onwards genesisEnv .Altair s .Bellatrix s' :=
  ⟨.genesis h, .upgrade (.call .start (.process_slots 8)) rfl h'⟩

/-- A block that brings in one new key, 20, with a signed deposit; the hypotheses hold. -/
example : keysOf (after .Deneb dueState fullBody) =
    (depositsOf .Deneb (Toy.block dueState fullBody).body).foldl (enrol Toy.env)
      (keysOf dueState) :=
  C89_registration toy_sane toy_far.2 toy_far.1 (by decide) (by decide +kernel)
    (by unfold Parallel; decide +kernel) toy_due

example : keysOf dueState = (List.range 20).map Toy.pk ∧
    keysOf (after .Deneb dueState fullBody) = (List.range 21).map Toy.pk := by decide +kernel

/-- A second deposit of the same key enrols nobody, and neither does an unsigned one. -/
example : ([depositOf 9 Toy.goodSig, depositOf 9 Toy.goodSig, depositOf 10 Toy.badSig].map
      (·.data)).foldl (enrol Toy.env) ((List.range 8).map Toy.pk) =
    (List.range 8).map Toy.pk ++ [Toy.pk 9] := by decide +kernel

end Verif.Props
