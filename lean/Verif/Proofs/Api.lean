import Verif.Proofs.PeerId
import Verif.Proofs.Text
import Verif.Props.PeerId
import Verif.Spec.Api

/-! # Requests as a server reads them -/

namespace Verif.Spec.Beacon

open Client Json Text Net

/-! ## Cutting texts -/

theorem split_ne_nil (c : Char) (s : List Char) : split c s ≠ [] := by
  cases s with
  | nil => simp [split]
  | cons x xs =>
    unfold split
    split
    · simp
    · split <;> simp

theorem split_append (c : Char) (a b : List Char) :
    split c (a ++ c :: b) = split c a ++ split c b := by
  induction a with
  | nil => simp [split]
  | cons x xs ih =>
    simp only [List.cons_append, split, ih]
    split
    · rfl
    · cases h : split c xs with
      | nil => exact absurd h (split_ne_nil c xs)
      | cons p ps => simp

theorem split_none {c : Char} {s : List Char} (h : c ∉ s) : split c s = [s] := by
  induction s with
  | nil => rfl
  | cons x xs ih =>
    simp only [List.mem_cons, not_or] at h
    simp [split, ih h.2, Ne.symm h.1]

theorem cut_none {c : Char} {s : List Char} (h : c ∉ s) : cut c s = (s, none) := by
  induction s with
  | nil => rfl
  | cons x xs ih =>
    simp only [List.mem_cons, not_or] at h
    simp [cut, ih h.2, Ne.symm h.1]

theorem cut_append {c : Char} {a : List Char} (h : c ∉ a) (b : List Char) :
    cut c (a ++ c :: b) = (a, some b) := by
  induction a with
  | nil => simp [cut]
  | cons x xs ih =>
    simp only [List.mem_cons, not_or] at h
    simp [cut, ih h.2, Ne.symm h.1]

theorem after_append (p s : List Char) : after p (p ++ s) = some s := by
  induction p with
  | nil => rfl
  | cons x xs ih => simp [after, ih]

theorem joinComma_cons_cons (x y : List Char) (xs : List (List Char)) :
    joinComma (x :: y :: xs) = x ++ ',' :: joinComma (y :: xs) := by
  simp [joinComma, List.intercalate, List.intersperse]

theorem split_joinComma {xs : List (List Char)} (hne : xs ≠ []) (h : ∀ x ∈ xs, ',' ∉ x) :
    split ',' (joinComma xs) = xs := by
  induction xs with
  | nil => exact absurd rfl hne
  | cons x xs ih =>
    cases xs with
    | nil =>
      have : joinComma [x] = x := by simp [joinComma, List.intercalate, List.intersperse]
      rw [this, split_none (h x (by simp))]
    | cons y xs =>
      rw [joinComma_cons_cons, split_append, split_none (h x (by simp)),
        ih (by simp) fun z hz => h z (by simp [hz])]
      rfl

/-! ## Characters -/

/-- The characters of the texts that the client puts into URLs -/
def Plain (s : List Char) : Prop := ∀ c ∈ s, c.isAlphanum = true ∨ c = '_'

theorem Plain.not_mem {s : List Char} (h : Plain s) {c : Char}
    (hc : (c.isAlphanum || c == '_') = false) : c ∉ s := by
  intro hs
  rcases h c hs with h | h <;> simp [h] at hc

theorem plain_hex (b : List UInt8) : Plain (write_bytes_to_lower_hex b) := by
  intro c hc
  left
  unfold write_bytes_to_lower_hex write_hex_from_bytes at hc
  simp only [List.mem_cons, List.mem_flatMap, List.not_mem_nil, or_false] at hc
  have hd : ∀ n, (hexDigit n).isAlphanum = true := by
    intro n; unfold hexDigit; split <;> decide
  rcases hc with rfl | rfl | ⟨x, -, rfl | rfl⟩
  · decide
  · decide
  · exact hd _
  · exact hd _

theorem plain_decimal (n : Nat) : Plain (decimal n) := by
  have hd : ∀ n, (decDigit n).isAlphanum = true := by
    intro n; unfold decDigit; split <;> decide
  induction n using Nat.strongRecOn with
  | ind n ih =>
    unfold decimal
    split
    · intro c hc
      simp only [List.mem_singleton] at hc
      subst hc
      exact .inl (hd n)
    · intro c hc
      rcases List.mem_append.1 hc with hc | hc
      · exact ih (n / 10) (by omega) c hc
      · simp only [List.mem_singleton] at hc
        subst hc
        exact .inl (hd _)

theorem plain_of_all {s : List Char} (h : s.all (fun c => c.isAlphanum || c == '_') = true) :
    Plain s := by
  intro c hc
  have := List.all_eq_true.1 h c hc
  simpa using this

theorem plain_state (id : StateId) : Plain id.display := by
  cases id
  case Slot n => exact plain_decimal n
  case Root b => exact plain_hex b
  all_goals exact plain_of_all (by decide +kernel)

theorem plain_block (id : BlockId) : Plain id.display := by
  cases id
  case Slot n => exact plain_decimal n
  case Root b => exact plain_hex b
  all_goals exact plain_of_all (by decide +kernel)

theorem plain_key (x : PublicKeyOrIndex) : Plain x.display := by
  cases x
  case PublicKey b => exact plain_hex b
  case Index n => exact plain_decimal n

theorem plain_peer (id : PeerId) : Plain id.to_base58 :=
  fun c hc => .inl (Props.C79_characters id c hc).2

/-! ## Parameters -/

theorem readHex_write {b : List UInt8} {n : Nat} (h : b.length = n) :
    readHex n (write_bytes_to_lower_hex b) = some b := by
  simp [readHex, write_bytes_to_lower_hex, hexDecode_write, h]

theorem decimal_first (n : Nat) : ∃ c t, decimal n = c :: t ∧ c ∈ "0123456789".toList := by
  have hd : ∀ n, decDigit n ∈ "0123456789".toList := by
    intro n; unfold decDigit; split <;> decide +kernel
  induction n using Nat.strongRecOn with
  | ind n ih =>
    unfold decimal
    split
    · exact ⟨_, [], rfl, hd n⟩
    · obtain ⟨c, t, e, hc⟩ := ih (n / 10) (by omega)
      exact ⟨c, t ++ [decDigit (n % 10)], by rw [e]; rfl, hc⟩

theorem decimal_no_x (n : Nat) : 'x' ∉ decimal n := by
  have hd : ∀ n, decDigit n ≠ 'x' := by
    intro n; unfold decDigit; split <;> decide
  induction n using Nat.strongRecOn with
  | ind n ih =>
    unfold decimal
    split
    · simpa using (hd n).symm
    · simp only [List.mem_append, List.mem_singleton, not_or]
      exact ⟨ih (n / 10) (by omega), (hd _).symm⟩

theorem readHex_decimal (k n : Nat) : readHex k (decimal n) = none := by
  have := decimal_no_x n
  unfold readHex
  split
  · next h => rw [h] at this; simp at this
  · rfl

theorem oneOf_first {α : Type} {names : List (String × α)} {c : Char} {t : List Char}
    (h : names.all (fun p => p.1.toList.head? != some c) = true) : oneOf names (c :: t) = none := by
  unfold oneOf
  rw [List.find?_eq_none.2]
  · rfl
  · intro p hp hc
    have h1 := List.all_eq_true.1 h p hp
    rw [beq_iff_eq.1 hc] at h1
    simp at h1

theorem oneOf_decimal {α : Type} {names : List (String × α)} (n : Nat)
    (h : ("0123456789".toList).all
      (fun c => names.all (fun p => p.1.toList.head? != some c)) = true) :
    oneOf names (decimal n) = none := by
  obtain ⟨c, t, e, hc⟩ := decimal_first n
  rw [e]
  exact oneOf_first (List.all_eq_true.1 h c hc)

theorem read_state {id : StateId} (h : ValidState id) :
    Kind.stateId.read id.display = some (.stateId id) := by
  cases id
  case Slot n =>
    have h1 : oneOf [("head", StateId.Head), ("genesis", .Genesis),
        ("finalized", .Finalized), ("justified", .Justified)] (decimal n) = none :=
      oneOf_decimal n (by decide +kernel)
    show (_ <|> _ <|> _ : Option _).map _ = _
    rw [show StateId.display (.Slot n) = decimal n from rfl, h1, readHex_decimal, parse_decimal h]
    rfl
  case Root b =>
    have h1 : oneOf [("head", StateId.Head), ("genesis", .Genesis),
        ("finalized", .Finalized), ("justified", .Justified)] (write_bytes_to_lower_hex b) = none :=
      oneOf_first (by decide +kernel)
    show (_ <|> _ <|> _ : Option _).map _ = _
    rw [show StateId.display (.Root b) = write_bytes_to_lower_hex b from rfl, h1, readHex_write h]
    rfl
  all_goals decide +kernel

theorem read_block {id : BlockId} (h : ValidBlock id) :
    Kind.blockId.read id.display = some (.blockId id) := by
  cases id
  case Slot n =>
    have h1 : oneOf [("head", BlockId.Head), ("genesis", .Genesis),
        ("finalized", .Finalized)] (decimal n) = none :=
      oneOf_decimal n (by decide +kernel)
    show (_ <|> _ <|> _ : Option _).map _ = _
    rw [show BlockId.display (.Slot n) = decimal n from rfl, h1, readHex_decimal, parse_decimal h]
    rfl
  case Root b =>
    have h1 : oneOf [("head", BlockId.Head), ("genesis", .Genesis),
        ("finalized", .Finalized)] (write_bytes_to_lower_hex b) = none :=
      oneOf_first (by decide +kernel)
    show (_ <|> _ <|> _ : Option _).map _ = _
    rw [show BlockId.display (.Root b) = write_bytes_to_lower_hex b from rfl, h1, readHex_write h]
    rfl
  all_goals decide +kernel

theorem read_key {x : PublicKeyOrIndex} (h : ValidKey x) :
    Kind.validatorId.read x.display = some (.validatorId x) := by
  cases x
  case PublicKey b =>
    simp only [Kind.read, PublicKeyOrIndex.display, readHex_write h]
    rfl
  case Index n =>
    simp only [Kind.read, PublicKeyOrIndex.display, readHex_decimal, parse_decimal h]
    rfl

theorem read_uint {n : Nat} (h : n < 2 ^ 64) : Kind.uint64.read (decimal n) = some (.uint64 n) := by
  simp [Kind.read, parse_decimal h]

theorem read_hex {k : Nat} {b : List UInt8} (h : b.length = k) :
    (Kind.hex k).read (write_bytes_to_lower_hex b) = some (.hex b) := by
  simp [Kind.read, readHex_write h]

theorem read_status (x : ValidatorStatus) :
    Kind.validatorStatus.read x.display.toList = some (.validatorStatus x) := by
  cases x <;> decide +kernel

theorem read_validation (x : BroadcastValidation) :
    Kind.broadcastValidation.read x.name.toList = some (.broadcastValidation x) := by
  cases x <;> decide +kernel

theorem read_peerState (x : PeerState) :
    Kind.peerState.read x.display.toList = some (.peerState x) := by
  cases x <;> decide +kernel

theorem read_direction (x : ConnectionOrientation) :
    Kind.peerDirection.read x.display.toList = some (.peerDirection x) := by
  cases x <;> decide +kernel

theorem read_version (f : Fork) : readVersion (some (forkName f).toList) = some (some f) := by
  cases f <;> decide +kernel

theorem plain_status (x : ValidatorStatus) : Plain x.display.toList := by
  cases x <;> exact plain_of_all (by decide +kernel)

theorem plain_peerState (x : PeerState) : Plain x.display.toList := by
  cases x <;> exact plain_of_all (by decide +kernel)

theorem plain_direction (x : ConnectionOrientation) : Plain x.display.toList := by
  cases x <;> exact plain_of_all (by decide +kernel)

theorem plain_validation (x : BroadcastValidation) : Plain x.name.toList := by
  cases x <;> exact plain_of_all (by decide +kernel)

/-! ## The query -/

/-- The characters that need no encoding, and the comma -/
def Light (s : List Char) : Prop := ∀ c ∈ s, c.isAlphanum = true ∨ c = '_' ∨ c = ','

theorem Plain.light {s : List Char} (h : Plain s) : Light s := fun c hc => by
  rcases h c hc with h | h
  · exact .inl h
  · exact .inr (.inl h)

theorem light_joinComma {xs : List (List Char)} (h : ∀ x ∈ xs, Plain x) : Light (joinComma xs) := by
  induction xs with
  | nil => intro c hc; simp [joinComma, List.intercalate] at hc
  | cons x xs ih =>
    cases xs with
    | nil =>
      have : joinComma [x] = x := by simp [joinComma, List.intercalate, List.intersperse]
      rw [this]
      exact (h x (by simp)).light
    | cons y xs =>
      rw [joinComma_cons_cons]
      intro c hc
      rcases List.mem_append.1 hc with hc | hc
      · exact (h x (by simp)).light c hc
      · rcases List.mem_cons.1 hc with rfl | hc
        · exact .inr (.inr rfl)
        · exact ih (fun z hz => h z (by simp [hz])) c hc

theorem formDecode_cons {c : Char} (h1 : c ≠ '+') (h2 : c ≠ '%') (rest : List Char) :
    formDecode (c :: rest) = (formDecode rest).map (c :: ·) := by
  rw [formDecode.eq_def]
  split
  · next h => simp at h
  · next h => simp at h; exact absurd h.1 h1
  · next h => simp at h; exact absurd h.1 h2
  · next h => simp at h; rw [← h.1, ← h.2]; simp [h2]

theorem formDecode_encode {s : List Char} (h : Light s) : formDecode (formEncode s) = some s := by
  induction s with
  | nil => rfl
  | cons c s ih =>
    have ih := ih fun x hx => h x (by simp [hx])
    have e : formEncode (c :: s) = (if formSafe c then [c] else if c = ' ' then ['+']
        else ['%', upperHex (c.toNat / 16), upperHex (c.toNat % 16)]) ++ formEncode s := rfl
    rw [e]
    rcases h c (by simp) with hc | rfl | rfl
    · have hs : formSafe c = true := by simp [formSafe, hc]
      rw [if_pos hs, List.singleton_append, formDecode_cons, ih]
      · rfl
      · rintro rfl; simp at hc
      · rintro rfl; simp at hc
    · rw [if_pos (by decide), List.singleton_append, formDecode_cons (by decide) (by decide), ih]
      rfl
    · rw [if_neg (by decide), if_neg (by decide)]
      show formDecode ('%' :: '2' :: 'C' :: formEncode s) = _
      rw [formDecode]
      simp only [show hexValue '2' = some 2 by decide, show hexValue 'C' = some 12 by decide]
      simp only [Option.bind_eq_bind, Option.bind_some, ih, Option.map_some]

theorem formEncode_no {s : List Char} (h : Light s) {c : Char} (hc : c.isAlphanum = false)
    (h' : c ≠ '_') (h'' : c ≠ '%') : c ∉ formEncode s := by
  intro hm
  obtain ⟨x, hx, hm⟩ := List.mem_flatMap.1 hm
  rcases h x hx with hx | rfl | rfl
  · have hs : formSafe x = true := by simp [formSafe, hx]
    rw [if_pos hs] at hm
    simp at hm; subst hm
    rw [hx] at hc; cases hc
  · rw [if_pos (by decide)] at hm
    simp at hm; exact h' hm
  · rw [if_neg (by decide), if_neg (by decide)] at hm
    have : c ∈ ['%', '2', 'C'] := hm
    simp only [List.mem_cons, List.not_mem_nil, or_false] at this
    rcases this with rfl | rfl | rfl
    · exact h'' rfl
    · simp at hc
    · simp at hc

/-- A parameter of a query as it is sent -/
def pairText (p : String × List Char) : List Char :=
  formEncode p.1.toList ++ '=' :: formEncode p.2

/-- A query as it is sent -/
def render : List (String × List Char) → List Char
  | [] => []
  | p :: ps => '?' :: (pairText p ++ ps.flatMap fun q => '&' :: pairText q)

theorem render_snoc (ps : List (String × List Char)) (p : String × List Char) :
    render (ps ++ [p]) = render ps ++ (if ps.isEmpty then '?' else '&') :: pairText p := by
  cases ps with
  | nil => simp [render]
  | cons q ps => simp [render]

theorem mem_render (ps : List (String × List Char)) (h : ps ≠ []) : '?' ∈ render ps := by
  cases ps with
  | nil => exact absurd rfl h
  | cons p ps => simp [render]

/-- A parameter that the query can hold -/
def GoodPair (p : String × List Char) : Prop := Plain p.1.toList ∧ Light p.2

theorem readPair_text {p : String × List Char} (h : GoodPair p) :
    readPair (pairText p) = some (p.1.toList, p.2) := by
  unfold readPair pairText
  rw [cut_append (formEncode_no h.1.light (by decide) (by decide) (by decide))]
  simp [formDecode_encode h.1.light, formDecode_encode h.2]

theorem split_pairs {p : String × List Char} {ps : List (String × List Char)}
    (h : GoodPair p) (hs : ∀ q ∈ ps, GoodPair q) :
    split '&' (pairText p ++ ps.flatMap fun q => '&' :: pairText q) = (p :: ps).map pairText := by
  have hno : ∀ q, GoodPair q → '&' ∉ pairText q := by
    intro q hq hm
    unfold pairText at hm
    rcases List.mem_append.1 hm with hm | hm
    · exact formEncode_no hq.1.light (by decide) (by decide) (by decide) hm
    · rcases List.mem_cons.1 hm with hm | hm
      · cases hm
      · exact formEncode_no hq.2 (by decide) (by decide) (by decide) hm
  induction ps generalizing p with
  | nil => simp [split_none (hno p h)]
  | cons q ps ih =>
    rw [List.flatMap_cons, List.cons_append, split_append, split_none (hno p h),
      ih (hs q (by simp)) fun x hx => hs x (by simp [hx])]
    rfl

theorem readTarget_render {path : List Char} (hp : '?' ∉ path) {ps : List (String × List Char)}
    (hs : ∀ q ∈ ps, GoodPair q) :
    readTarget (path ++ render ps) = some (path, ps.map fun p => (p.1.toList, p.2)) := by
  cases ps with
  | nil => simp [readTarget, render, cut_none hp]
  | cons p ps =>
    have : ((p :: ps).map pairText).mapM readPair =
        some ((p :: ps).map fun p => (p.1.toList, p.2)) := by
      generalize p :: ps = l at hs
      induction l with
      | nil => rfl
      | cons q l ih =>
        rw [List.map_cons, List.mapM_cons, readPair_text (hs q (by simp)),
          ih fun x hx => hs x (by simp [hx])]
        rfl
    have hsp := split_pairs (hs p (by simp)) fun x hx => hs x (List.mem_cons_of_mem _ hx)
    unfold readTarget render
    rw [cut_append hp]
    dsimp only
    rw [hsp, this]
    rfl

/-! ## Building a request -/

/-- A request below a path of a base, with a query -/
structure Built (r : Request) (target : List Char) (ps : List (String × List Char)) : Prop where
  url : r.url = target ++ render ps
  clean : '?' ∉ target
  good : ∀ q ∈ ps, GoodPair q

theorem Built.query {r : Request} {t : List Char} {ps : List (String × List Char)}
    (h : Built r t ps) {name : String} {value : List Char} (hn : Plain name.toList)
    (hv : Light value) : Built (r.query name value) t (ps ++ [(name, value)]) := by
  refine ⟨?_, h.clean, ?_⟩
  · rw [render_snoc, ← List.append_assoc, ← h.url]
    unfold Request.query pairText
    dsimp only
    congr 2
    by_cases he : ps = []
    · subst he
      have : '?' ∉ r.url := by rw [h.url]; simpa [render] using h.clean
      rw [if_neg this]; rfl
    · have : '?' ∈ r.url := by rw [h.url]; exact List.mem_append_right _ (mem_render ps he)
      have he' : ps.isEmpty = false := by simpa using he
      rw [if_pos this, he']; rfl
  · intro q hq
    rcases List.mem_append.1 hq with hq | hq
    · exact h.good q hq
    · simp only [List.mem_singleton] at hq
      subst hq
      exact ⟨hn, hv⟩

/-- The pairs of an optional parameter -/
def optPair (name : String) (value : Option (List Char)) : List (String × List Char) :=
  match value with
  | none => []
  | some v => [(name, v)]

theorem Built.query? {r : Request} {t : List Char} {ps : List (String × List Char)}
    (h : Built r t ps) {name : String} {value : Option (List Char)} (hn : Plain name.toList)
    (hv : ∀ v ∈ value, Light v) : Built (r.query? name value) t (ps ++ optPair name value) := by
  cases value with
  | none => simpa [Request.query?, optPair] using h
  | some v => exact h.query hn (hv v rfl)

/-- The pairs of a list -/
def listPair (name : String) (xs : List (List Char)) : List (String × List Char) :=
  if xs.isEmpty then [] else [(name, joinComma xs)]

theorem Built.queryList {r : Request} {t : List Char} {ps : List (String × List Char)}
    (h : Built r t ps) {name : String} {xs : List (List Char)} (hn : Plain name.toList)
    (hv : ∀ v ∈ xs, Plain v) : Built (r.queryList name xs) t (ps ++ listPair name xs) := by
  unfold Request.queryList listPair
  split
  · simpa using h
  · exact h.query hn (light_joinComma hv)

theorem query_fields (r : Request) (name : String) (value : List Char) :
    (r.query name value).method = r.method ∧ (r.query name value).version = r.version ∧
    (r.query name value).body = r.body := ⟨rfl, rfl, rfl⟩

theorem query?_fields (r : Request) (name : String) (value : Option (List Char)) :
    (r.query? name value).method = r.method ∧ (r.query? name value).version = r.version ∧
    (r.query? name value).body = r.body := by cases value <;> exact ⟨rfl, rfl, rfl⟩

theorem queryList_fields (r : Request) (name : String) (xs : List (List Char)) :
    (r.queryList name xs).method = r.method ∧ (r.queryList name xs).version = r.version ∧
    (r.queryList name xs).body = r.body := by
  unfold Request.queryList; split <;> exact ⟨rfl, rfl, rfl⟩

/-! ## Finding the operation -/

/-- Whether some path belongs to both of two operations -/
def overlap : List Seg → List Seg → Bool
  | [], [] => true
  | .lit a :: s, .lit b :: t => a == b && overlap s t
  | .par :: s, _ :: t => overlap s t
  | _ :: s, .par :: t => overlap s t
  | _, _ => false

theorem overlap_of_match {s t : List Seg} {parts : List (List Char)}
    (h1 : (matchPath s parts).isSome = true) (h2 : (matchPath t parts).isSome = true) :
    overlap s t = true := by
  induction parts generalizing s t with
  | nil =>
    cases s with
    | nil => cases t with
      | nil => rfl
      | cons b t => cases b <;> simp [matchPath] at h2
    | cons a s => cases a <;> simp [matchPath] at h1
  | cons p parts ih =>
    cases s with
    | nil => simp [matchPath] at h1
    | cons a s =>
      cases t with
      | nil => simp [matchPath] at h2
      | cons b t =>
        cases a with
        | lit a =>
          simp only [matchPath] at h1
          split at h1
          · next ea =>
            cases b with
            | lit b =>
              simp only [matchPath] at h2
              split at h2
              · next eb =>
                subst ea
                simp [overlap, eb.symm, ih h1 h2]
              · cases h2
            | par => simp only [matchPath, Option.isSome_map] at h2; simp [overlap, ih h1 h2]
          · cases h1
        | par =>
          simp only [matchPath, Option.isSome_map] at h1
          cases b with
          | lit b =>
            simp only [matchPath] at h2
            split at h2
            · simp [overlap, ih h1 h2]
            · cases h2
          | par => simp only [matchPath, Option.isSome_map] at h2; simp [overlap, ih h1 h2]

/-- No two operations share a path and a method. -/
theorem routes_apart : ∀ a ∈ routes, ∀ b ∈ routes, a.method = b.method →
    overlap a.segs b.segs = true → a = b := by
  decide +kernel

theorem Route.read_match {route : Route} {r : Request} {path : List Char}
    {pairs : List (List Char × List Char)} {o : Operation} (h : route.read r path pairs = some o) :
    route.method = r.method ∧ (matchPath route.segs (split '/' path)).isSome = true := by
  unfold Route.read at h
  simp only [Option.bind_eq_bind] at h
  split at h
  · simp at h
  · next hm =>
    refine ⟨by simpa using hm, ?_⟩
    cases hp : matchPath route.segs (split '/' path) with
    | none => simp [hp] at h
    | some x => rfl

theorem findSome_unique {α β : Type} {l : List α} {f : α → Option β} {a : α} {b : β}
    (ha : a ∈ l) (hf : f a = some b) (hu : ∀ x ∈ l, ∀ y, f x = some y → x = a) :
    l.findSome? f = some b := by
  induction l with
  | nil => cases ha
  | cons x l ih =>
    rw [List.findSome?_cons]
    cases hx : f x with
    | some y =>
      have := hu x (by simp) y hx
      subst this
      rw [hf] at hx
      simp [← hx]
    | none =>
      dsimp only
      rcases List.mem_cons.1 ha with rfl | ha
      · rw [hf] at hx; cases hx
      · exact ih ha fun z hz => hu z (by simp [hz])

/-- The operation of a request, piece by piece -/
theorem serve_of {b path : List Char} {r : Request} {ps : List (String × List Char)} {route : Route}
    {texts : List (List Char)} {args : List Arg} {qs : List (String × List Arg)}
    {v : Option Fork} {body : Body}
    (hr : route ∈ routes) (hb : Built r (b ++ path) ps) (hm : route.method = r.method)
    (hp : matchPath route.segs (split '/' path) = some texts)
    (ha : readParams route.params texts = some args)
    (hq : readQuery route.query (ps.map fun p => (p.1.toList, p.2)) = some qs)
    (hv : readVersion r.version = some v) (hv' : v.isSome = route.versioned)
    (hbd : readBody route.body r.body = some body) :
    serve b r = some { name := route.name, path := args, query := qs, version := v, body } := by
  have hclean : '?' ∉ path := fun h => hb.clean (List.mem_append_right _ h)
  unfold serve
  rw [hb.url, List.append_assoc, after_append]
  simp only [Option.bind_eq_bind, Option.bind_some, readTarget_render hclean hb.good]
  refine findSome_unique hr ?_ ?_
  · unfold Route.read
    simp [hm, hp, ha, hq, hv, hv', hbd]
  · intro x hx y hy
    obtain ⟨h1, h2⟩ := Route.read_match hy
    exact routes_apart x hx route hr (h1.trans hm.symm)
      (overlap_of_match h2 (by rw [hp]; rfl))

/-! ## Paths -/

theorem matchPath_append {s t : List Seg} {a b : List (List Char)} {x y : List (List Char)}
    (h1 : matchPath s a = some x) (h2 : matchPath t b = some y) :
    matchPath (s ++ t) (a ++ b) = some (x ++ y) := by
  induction a generalizing s x with
  | nil =>
    cases s with
    | nil => simp only [matchPath, Option.some.injEq] at h1; subst h1; simpa using h2
    | cons c s => cases c <;> simp [matchPath] at h1
  | cons p a ih =>
    cases s with
    | nil => simp [matchPath] at h1
    | cons c s =>
      cases c with
      | lit l =>
        simp only [matchPath] at h1
        split at h1
        · next e => simp [matchPath, e, ih h1]
        · cases h1
      | par =>
        simp only [matchPath, Option.map_eq_some_iff] at h1
        obtain ⟨z, hz, rfl⟩ := h1
        simp [matchPath, ih hz]

theorem matchPath_lits (l : List (List Char)) : matchPath (l.map .lit) l = some [] := by
  induction l with
  | nil => rfl
  | cons a l ih => simp [matchPath, ih]

/-- The parts of a path with one parameter -/
def shape (head tail : String) : List Seg :=
  (split '/' head.toList.dropLast).map .lit ++ .par ::
    (match tail.toList with
    | [] => []
    | _ :: t => (split '/' t).map .lit)

/-- The texts around a parameter are whole parts of the path. -/
def framed (head tail : String) : Bool :=
  head.toList.getLast? == some '/' && tail.toList.head?.all (· == '/') &&
    !head.toList.contains '?' && !tail.toList.contains '?'

theorem match_shape {head tail : String} (h : framed head tail = true) {v : List Char}
    (hv : '/' ∉ v) : matchPath (shape head tail) (split '/' (path3 head v tail)) = some [v] := by
  simp only [framed, Bool.and_eq_true, beq_iff_eq] at h
  obtain ⟨⟨⟨h1, h2⟩, -⟩, -⟩ := h
  have e : head.toList = head.toList.dropLast ++ ['/'] :=
    (List.dropLast_append_getLast? '/' h1).symm
  unfold path3 shape
  generalize head.toList.dropLast = A at e
  rw [e]
  rw [show A ++ ['/'] ++ v ++ tail.toList = A ++ '/' :: (v ++ tail.toList) by simp, split_append]
  refine matchPath_append (matchPath_lits _) (?_ : _ = some ([v]))
  cases ht : tail.toList with
  | nil => simp [split_none hv, matchPath]
  | cons c t =>
    rw [ht] at h2
    have : c = '/' := by simpa using h2
    subst this
    rw [split_append, split_none hv]
    simp [matchPath, matchPath_lits]

theorem framed_clean {head tail : String} (h : framed head tail = true) {v : List Char}
    (hv : '?' ∉ v) : '?' ∉ path3 head v tail := by
  simp only [framed, Bool.and_eq_true, Bool.not_eq_true', List.contains_eq_mem,
    decide_eq_false_iff_not] at h
  unfold path3
  simp only [List.mem_append, not_or]
  exact ⟨⟨h.1.2, hv⟩, h.2⟩

/-- A path without parameters -/
theorem match_plain {route : Route} {path : String}
    (h : route.segs = (split '/' path.toList).map .lit) :
    matchPath route.segs (split '/' path.toList) = some [] := by
  rw [h]; exact matchPath_lits _

end Verif.Spec.Beacon
