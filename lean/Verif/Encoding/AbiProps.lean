import Verif.Encoding.AbiLemmas
import Verif.Encoding.Sort

/-!
# C59 and the EVM part of C61: the ABI encoding
-/

namespace Amp.Encoding.Abi

open Amp.Multisig (Signature PublicKey Signer WorkerSet)

/-- the data that occurs: a `Uint256` chain id and 32-byte command ids (hashes) -/
def DataOk (d : Data) : Prop := d.destinationChainId ≤ u256Max ∧ ∀ c ∈ d.commands, c.id.length = 32

/-- two different inputs with the same hash -/
def Collision (H : Bytes → Bytes) (x y : Bytes) : Prop := x ≠ y ∧ H x = H y

theorem lt_pow_of_le {n : Nat} (h : n ≤ u256Max) : n < 256 ^ 32 := by
  have : u256Max < 256 ^ 32 := by decide
  omega

theorem mapE_map_ok {α β ε : Type} {f : α → Except ε β} {l : List α} {r : List β}
    (h : mapE f l = .ok r) : r.map Except.ok = l.map f := by
  induction l generalizing r with
  | nil => simp only [mapE, Except.ok.injEq] at h; subst h; rfl
  | cons a t ih =>
    obtain ⟨b, bs, h1, h2, rfl⟩ := mapE_cons_ok.mp h
    simp [ih h2, h1]

/-! ### C59: the data -/

/-- C59: decoding the signed data, as the destination gateway does, gives back the chain id and every
command's id, type and parameters, in order. -/
theorem C59_data_roundtrip (d : Data) (hd : DataOk d) (b : Bytes) (h : encode d = .ok b) :
    decodeData b = some d := by
  unfold encode at h
  obtain ⟨hb, hlen⟩ := ethabi_ok.mp h
  have hs := small hlen
  simp only [List.map_cons, List.map_nil, Token.mediate, Elem.mediate] at hb
  have hat : At b 0 (headTail [.raw (word d.destinationChainId),
      .dyn (word ((d.commands.map (·.id)).map Elem.fixedBytes).length ++
        headTail (((d.commands.map (·.id)).map Elem.fixedBytes).map Elem.mediate)),
      .dyn (word ((d.commands.map (fun c => utf8Bytes c.ty.show)).map Elem.bytes).length ++
        headTail (((d.commands.map (fun c => utf8Bytes c.ty.show)).map Elem.bytes).map Elem.mediate)),
      .dyn (word ((d.commands.map (·.params)).map Elem.bytes).length ++
        headTail (((d.commands.map (·.params)).map Elem.bytes).map Elem.mediate))]) := by
    have := At.self b
    conv at this => rhs; rw [← hb]
    simpa only [List.map_map, Function.comp_def, strTok] using this
  unfold decodeData
  have h0 : uintAt b 0 = some d.destinationChainId := by
    have := at_raw (pre := []) hat
    simp only [hl, List.map_nil, List.sum_nil, Nat.add_zero] at this
    exact uintAt_of_at this (lt_pow_of_le hd.1)
  obtain ⟨q1, a1, r1⟩ := dyn_read (pre := [.raw (word d.destinationChainId)]) hat hs
  obtain ⟨q2, a2, r2⟩ := dyn_read (pre := [.raw (word d.destinationChainId), .dyn _]) hat hs
  obtain ⟨q3, a3, r3⟩ := dyn_read (pre := [.raw (word d.destinationChainId), .dyn _, .dyn _]) hat hs
  simp only [hl, List.map_cons, List.map_nil, List.sum_cons, List.sum_nil, Mediate.headLen, word_length,
    Nat.zero_add, Nat.add_zero, Nat.reduceAdd] at r1 r2 r3
  rw [h0, r1, r2, r3, bytes32Array_of_at a1 hs ?_, bytesArray_of_at a2 hs, bytesArray_of_at a3 hs]
  · simp only [List.map_map]
    rw [allSome_map (g := fun c => c.ty) (fun c _ => commandType_show c.ty)]
    simp only [zipCommands_ok]
  · intro x hx
    obtain ⟨c, hc, rfl⟩ := List.mem_map.mp hx
    exact hd.2 c hc

/-- C59: equal encodings mean equal data. -/
theorem C59_injective (d d' : Data) (hd : DataOk d) (hd' : DataOk d') (b : Bytes)
    (h : encode d = .ok b) (h' : encode d' = .ok b) : d = d' := by
  have h1 := C59_data_roundtrip d hd b h
  rw [C59_data_roundtrip d' hd' b h'] at h1
  simpa using h1.symm

/-- C59: equal digests mean equal data, unless a collision of the hash function has been found - in the
encodings or in the prefixed hashes. -/
theorem C59_digest (X : Ext) (d d' : Data) (hd : DataOk d) (hd' : DataOk d') (g b b' : Bytes)
    (hb : encode d = .ok b) (hb' : encode d' = .ok b') (h : msgDigest X d = .ok g)
    (h' : msgDigest X d' = .ok g) :
    d = d' ∨ Collision X.keccak b b' ∨
      Collision X.keccak (digestPrefix ++ X.keccak b) (digestPrefix ++ X.keccak b') := by
  unfold msgDigest at h h'
  rw [hb] at h
  rw [hb'] at h'
  simp only [Except.ok.injEq] at h h'
  by_cases h1 : digestPrefix ++ X.keccak b = digestPrefix ++ X.keccak b'
  · have h2 : X.keccak b = X.keccak b' := List.append_cancel_left h1
    by_cases h3 : b = b'
    · subst h3
      exact Or.inl (C59_injective d d' hd hd' b hb hb')
    · exact Or.inr (Or.inl ⟨h3, h2⟩)
  · exact Or.inr (Or.inr ⟨h1, by rw [h, h']⟩)

/-! ### C59: the parameters of commands -/

/-- C59: the parameters of an approval determine the source chain, the source address, the destination
address and the payload hash. -/
theorem C59_approval_roundtrip (X : Ext) (chain src dst : Str) (payload b : Bytes)
    (hp : payload.length = 32) (h : commandParams X chain src dst payload = .ok b) :
    ∃ a, X.parseH160 dst = some a ∧
      decodeCommandParams b = some (utf8Bytes chain, utf8Bytes src, a, payload) := by
  unfold commandParams at h
  cases ha : X.parseH160 dst with
  | none => rw [ha] at h; simp at h
  | some a =>
    rw [ha] at h
    simp only at h
    refine ⟨a, rfl, ?_⟩
    obtain ⟨hb, hlen⟩ := ethabi_ok.mp h
    have hs := small hlen
    have hat : At b 0 (headTail [
        .dyn (word (utf8Bytes chain).length ++ pad32 (utf8Bytes chain)),
        .dyn (word (utf8Bytes src).length ++ pad32 (utf8Bytes src)),
        .raw (List.replicate 12 0 ++ a), .raw payload, .raw (pad32 []), .raw (word 0)]) := by
      have := At.self b
      conv at this => rhs; rw [← hb]
      simpa only [List.map_cons, List.map_nil, Token.mediate, Elem.mediate, strTok,
        pad32_of_32 hp] using this
    obtain ⟨q1, a1, r1⟩ := dyn_read (pre := []) hat hs
    obtain ⟨q2, a2, r2⟩ := dyn_read (pre := [.dyn _]) hat hs
    have a3 := at_raw (pre := [.dyn _, .dyn _]) hat
    have a4 := at_raw (pre := [.dyn _, .dyn _, .raw (List.replicate 12 0 ++ a)]) hat
    have hal := X.parseH160_length dst a ha
    simp only [hl, List.map_cons, List.map_nil, List.sum_cons, List.sum_nil, Mediate.headLen,
      Nat.zero_add, Nat.add_zero, Nat.reduceAdd, List.length_append, List.length_replicate, hal]
      at r1 r2 a3 a4
    unfold decodeCommandParams
    have a4' := a4.slice
    rw [hp] at a4'
    rw [r1, r2, bytesAt_of_at a1 hs, bytesAt_of_at a2 hs, addressAt_of_at a3 hal, a4']

/-- C59: approvals with equal parameters are for the same source chain, source address and payload hash, and
for the same destination address up to its spelling. -/
theorem C59_approval_injective (X : Ext) (chain src dst chain' src' dst' : Str)
    (payload payload' b : Bytes) (hp : payload.length = 32) (hp' : payload'.length = 32)
    (h : commandParams X chain src dst payload = .ok b)
    (h' : commandParams X chain' src' dst' payload' = .ok b) :
    chain = chain' ∧ src = src' ∧ X.parseH160 dst = X.parseH160 dst' ∧ payload = payload' := by
  obtain ⟨a, h1, h2⟩ := C59_approval_roundtrip X chain src dst payload b hp h
  obtain ⟨a', h1', h2'⟩ := C59_approval_roundtrip X chain' src' dst' payload' b hp' h'
  rw [h2] at h2'
  simp only [Option.some.injEq, Prod.mk.injEq] at h2'
  obtain ⟨e1, e2, e3, e4⟩ := h2'
  exact ⟨utf8Bytes_inj e1, utf8Bytes_inj e2, by rw [h1, h1', e3], e4⟩

/-! ### C61: operators -/

theorem addresses_ok {α : Type} {f : α → Bytes} {l : List α} {as : List Elem}
    (h : mapE (fun o => addressTok (f o)) l = .ok as) :
    as = (l.map f).map Elem.address ∧ ∀ o ∈ l, (f o).length = 20 := by
  induction l generalizing as with
  | nil => simp only [mapE, Except.ok.injEq] at h; subst h; simp
  | cons x t ih =>
    obtain ⟨b, bs, h1, h2, rfl⟩ := mapE_cons_ok.mp h
    obtain ⟨e1, e2⟩ := ih h2
    unfold addressTok at h1
    split at h1
    · rename_i hl
      simp only [Except.ok.injEq] at h1
      subst h1
      subst e1
      refine ⟨by simp, ?_⟩
      intro o ho
      rcases List.mem_cons.mp ho with rfl | ho
      · exact hl
      · exact e2 o ho
    · simp at h1

theorem operatorsOf_ok {X : Ext} {ws : WorkerSet} {l : List (Bytes × Nat)}
    (h : operatorsOf X ws = .ok l) :
    l.map (fun o => ((Except.ok o.1 : Except Err Bytes), o.2)) =
      ws.signers.map (fun e => (evmAddress X e.2.pubKey.bytes, e.2.weight)) := by
  unfold operatorsOf at h
  induction hl : ws.signers generalizing l ws with
  | nil => rw [hl] at h; simp only [mapE, Except.ok.injEq] at h; subst h; rfl
  | cons x t ih =>
    rw [hl] at h
    obtain ⟨b, bs, h1, h2, rfl⟩ := mapE_cons_ok.mp h
    have := ih (ws := { ws with signers := t }) h2 rfl
    simp only [List.map_cons, this]
    cases ha : evmAddress X x.2.pubKey.bytes with
    | error e => rw [ha] at h1; simp at h1
    | ok a =>
      rw [ha] at h1
      simp only [Except.ok.injEq] at h1
      subst h1
      rfl

/-- operators, weights and threshold can be read back from their encoding -/
theorem operatorship_roundtrip (ops : List (Bytes × Nat)) (t : Nat) (b : Bytes)
    (h20 : ∀ o ∈ ops, o.1.length = 20) (hwt : ∀ o ∈ ops, o.2 < 256 ^ 32) (ht : t < 256 ^ 32)
    (h : ethabiEncode [.array (ops.map (fun o => .address o.1)), .array (ops.map (fun o => .uint o.2)),
      .elem (.uint t)] = .ok b) :
    decodeOperatorship b = some (ops.map Prod.fst, ops.map Prod.snd, t) := by
  obtain ⟨hb, hlen⟩ := ethabi_ok.mp h
  have hs := small hlen
  have hat : At b 0 (headTail [
      .dyn (word ((ops.map Prod.fst).map Elem.address).length ++
        headTail (((ops.map Prod.fst).map Elem.address).map Elem.mediate)),
      .dyn (word ((ops.map Prod.snd).map Elem.uint).length ++
        headTail (((ops.map Prod.snd).map Elem.uint).map Elem.mediate)),
      .raw (word t)]) := by
    have := At.self b
    conv at this => rhs; rw [← hb]
    simpa only [List.map_cons, List.map_nil, Token.mediate, Elem.mediate, List.map_map,
      Function.comp_def] using this
  obtain ⟨q1, a1, r1⟩ := dyn_read (pre := []) hat hs
  obtain ⟨q2, a2, r2⟩ := dyn_read (pre := [.dyn _]) hat hs
  have a3 := at_raw (pre := [.dyn _, .dyn _]) hat
  simp only [Abi.hl, List.map_cons, List.map_nil, List.sum_cons, List.sum_nil, Mediate.headLen,
    Nat.zero_add, Nat.add_zero, Nat.reduceAdd] at r1 r2 a3
  unfold decodeOperatorship
  rw [r1, r2, addressArray_of_at a1 hs ?_, uintArray_of_at a2 hs ?_, uintAt_of_at a3 ht]
  · intro x hx
    obtain ⟨o, ho, rfl⟩ := List.mem_map.mp hx
    exact hwt o ho
  · intro x hx
    obtain ⟨o, ho, rfl⟩ := List.mem_map.mp hx
    exact h20 o ho

/-- C61: an operatorship transfer lists exactly the signers of the new worker set - the address derived from
each key with its weight at the same position -, in ascending order of addresses, and its threshold. -/
theorem C61_transfer_abi (X : Ext) (ws : WorkerSet) (b : Bytes) (hw : ∀ e ∈ ws.signers, e.2.weight ≤ u256Max)
    (ht : ws.threshold ≤ u256Max) (h : transferOperatorshipParams X ws = .ok b) :
    ∃ ops : List (Bytes × Nat),
      decodeOperatorship b = some (ops.map Prod.fst, ops.map Prod.snd, ws.threshold) ∧
      (ops.map Prod.fst).Pairwise (· ≤ ·) ∧
      (ops.map (fun o => ((Except.ok o.1 : Except Err Bytes), o.2))).Perm
        (ws.signers.map (fun e => (evmAddress X e.2.pubKey.bytes, e.2.weight))) := by
  unfold transferOperatorshipParams at h
  cases hl : operatorsOf X ws with
  | error e => rw [hl] at h; simp at h
  | ok l =>
    rw [hl] at h
    dsimp only at h
    have hops := operatorsOf_ok hl
    have hperm := sortByAddr_perm l
    have hsort := sortByAddr_sorted l
    have hwt : ∀ o ∈ Std.sortByAddr l, o.2 < 256 ^ 32 := by
      intro o ho
      have ho' := hperm.mem_iff.mp ho
      have : ((Except.ok o.1 : Except Err Bytes), o.2) ∈
          ws.signers.map (fun e => (evmAddress X e.2.pubKey.bytes, e.2.weight)) := by
        rw [← hops]; exact List.mem_map.mpr ⟨o, ho', rfl⟩
      obtain ⟨e, he, heq⟩ := List.mem_map.mp this
      simp only [Prod.mk.injEq] at heq
      rw [← heq.2]
      exact lt_pow_of_le (hw e he)
    revert hperm hsort hwt h
    generalize Std.sortByAddr l = ops
    intro h hperm hsort hwt
    cases ha : mapE (fun o : Bytes × Nat => addressTok o.1) ops with
    | error e => rw [ha] at h; simp at h
    | ok as =>
      rw [ha] at h
      simp only at h
      obtain ⟨rfl, h20⟩ := addresses_ok ha
      refine ⟨ops, ?_, hsort, ?_⟩
      · rw [List.map_map] at h
        exact operatorship_roundtrip ops ws.threshold b h20 hwt (lt_pow_of_le ht) h
      · rw [← hops]
        exact hperm.map _

/-- C61: the address of a signer is the last twenty bytes of the hash of the uncompressed key without its
format byte; a key that is not a point of the curve has none. -/
theorem C61_address_abi (X : Ext) (key : Bytes) :
    (∀ format point, X.uncompress key = some (format :: point) →
      ∃ first last, evmAddress X key = .ok last ∧ last.length = 20 ∧ X.keccak point = first ++ last) ∧
    (X.uncompress key = none → evmAddress X key = .error .invalidPublicKey) := by
  unfold evmAddress
  constructor
  · intro format point h
    rw [h]
    refine ⟨(X.keccak point).take 12, (X.keccak point).drop 12, rfl, ?_, (List.take_append_drop 12 _).symm⟩
    rw [List.length_drop, X.keccak_length]
  · intro h
    rw [h]

/-- C61: the operators sent to the verifier are the same, in the same order. -/
theorem C61_operators_abi (X : Ext) (ws : WorkerSet) (o : Std.Operators)
    (h : makeOperators X ws = .ok o) :
    o.threshold = ws.threshold ∧ (o.weights.map Prod.fst).Pairwise (· ≤ ·) ∧
      (o.weights.map (fun o => ((Except.ok o.1 : Except Err Bytes), o.2))).Perm
        (ws.signers.map (fun e => (evmAddress X e.2.pubKey.bytes, e.2.weight))) := by
  unfold makeOperators at h
  cases hl : operatorsOf X ws with
  | error e => rw [hl] at h; simp at h
  | ok l =>
    rw [hl] at h
    simp only [Except.ok.injEq] at h
    subst h
    refine ⟨rfl, sortByAddr_sorted l, ?_⟩
    rw [← operatorsOf_ok hl]
    exact (sortByAddr_perm l).map _

/-- the signature a member is listed with in an EVM proof: the recovery id plus 27 is appended to a plain
signature, which is left out if there is no recovery id -/
def proofSignature (X : Ext) (digest : Bytes) (key : PublicKey) : Option Signature → Option Signature
  | some (.ecdsa b) =>
    match X.recoveryId digest key.bytes b with
    | none => none
    | some r => some (.ecdsaRecoverable (b ++ [r + 27]))
  | s => s

theorem operatorsWithSigs_ok {X : Ext} {l : List (Signer × Option Signature)} {ops : List Operator}
    (h : makeOperatorsWithSigs X l = .ok ops) :
    ops.map (fun o => ((Except.ok o.address : Except Err Bytes), o.weight, o.signature)) =
      l.map (fun e => (evmAddress X e.1.pubKey.bytes, e.1.weight, e.2)) := by
  unfold makeOperatorsWithSigs at h
  induction l generalizing ops with
  | nil => simp only [mapE, Except.ok.injEq] at h; subst h; rfl
  | cons x t ih =>
    obtain ⟨b, bs, h1, h2, rfl⟩ := mapE_cons_ok.mp h
    simp only [List.map_cons, ih h2]
    cases ha : evmAddress X x.1.pubKey.bytes with
    | error e => rw [ha] at h1; simp at h1
    | ok a =>
      rw [ha] at h1
      simp only [Except.ok.injEq] at h1
      subst h1
      rfl

theorem recoverable_map {X : Ext} {digest : Bytes} {signers : List (Signer × Option Signature)} :
    (recoverableSigners X digest add27 signers).map
        (fun e => (evmAddress X e.1.pubKey.bytes, e.1.weight, e.2)) =
      signers.map (fun e => (evmAddress X e.1.pubKey.bytes, e.1.weight,
        proofSignature X digest e.1.pubKey e.2)) := by
  unfold recoverableSigners
  rw [List.map_map]
  apply List.map_congr_left
  intro e _
  simp only [Function.comp]
  congr 2

theorem recoverable_weights {X : Ext} {digest : Bytes} {signers : List (Signer × Option Signature)}
    {f : Nat → Nat} {w : Nat} (hw : ∀ e ∈ signers, e.1.weight ≤ w) :
    ∀ e ∈ recoverableSigners X digest f signers, e.1.weight ≤ w := by
  intro e he
  unfold recoverableSigners at he
  obtain ⟨e', he', rfl⟩ := List.mem_map.mp he
  exact hw e' he'

theorem sigs_map (ops : List Operator) :
    ops.filterMap (fun o => o.signature.map (fun s => Elem.bytes s.bytes)) =
      (ops.filterMap (fun o => o.signature.map Signature.bytes)).map Elem.bytes := by
  rw [List.map_filterMap]
  congr 1
  funext o
  rw [Option.map_map]
  rfl

theorem proof_decodes {X : Ext} {quorum : Nat} (hq : quorum ≤ u256Max)
    {l : List (Signer × Option Signature)} (hw : ∀ e ∈ l, e.1.weight ≤ u256Max) {p : Bytes}
    (hp : encodeProof X quorum l = .ok p) :
    ∃ ops : List Operator,
      decodeProof p = some (ops.map Operator.address, ops.map Operator.weight, quorum,
        ops.filterMap (fun o => o.signature.map Signature.bytes)) ∧
      (ops.map Operator.address).Pairwise (· ≤ ·) ∧
      (ops.map (fun o => ((Except.ok o.address : Except Err Bytes), o.weight, o.signature))).Perm
        (l.map (fun e => (evmAddress X e.1.pubKey.bytes, e.1.weight, e.2))) := by
  unfold encodeProof at hp
  cases ho : makeOperatorsWithSigs X l with
  | error e => rw [ho] at hp; simp at hp
  | ok ops0 =>
  rw [ho] at hp
  dsimp only at hp
  have hops := operatorsWithSigs_ok ho
  have hperm := sortBy_perm opLe ops0
  have hsort := opLe_sorted ops0
  have hwt : ∀ o ∈ sortBy opLe ops0, o.weight < 256 ^ 32 := by
    intro o ho'
    have ho'' := hperm.mem_iff.mp ho'
    have : ((Except.ok o.address : Except Err Bytes), o.weight, o.signature) ∈
        l.map (fun e => (evmAddress X e.1.pubKey.bytes, e.1.weight, e.2)) := by
      rw [← hops]; exact List.mem_map.mpr ⟨o, ho'', rfl⟩
    obtain ⟨e, he, heq⟩ := List.mem_map.mp this
    simp only [Prod.mk.injEq] at heq
    rw [← heq.2.1]
    exact lt_pow_of_le (hw e he)
  revert hperm hsort hwt hp
  generalize sortBy opLe ops0 = ops
  intro hp hperm hsort hwt
  cases ha : mapE (fun o : Operator => addressTok o.address) ops with
  | error e => rw [ha] at hp; simp at hp
  | ok as =>
  rw [ha] at hp
  simp only at hp
  obtain ⟨rfl, h20⟩ := addresses_ok ha
  refine ⟨ops, ?_, hsort, ?_⟩
  · obtain ⟨hbb, hlen⟩ := ethabi_ok.mp hp
    have hs := small hlen
    have hat : At p 0 (headTail [
        .dyn (word ((ops.map Operator.address).map Elem.address).length ++
          headTail (((ops.map Operator.address).map Elem.address).map Elem.mediate)),
        .dyn (word ((ops.map Operator.weight).map Elem.uint).length ++
          headTail (((ops.map Operator.weight).map Elem.uint).map Elem.mediate)),
        .raw (word quorum),
        .dyn (word ((ops.filterMap (fun o => o.signature.map Signature.bytes)).map Elem.bytes).length ++
          headTail (((ops.filterMap (fun o => o.signature.map Signature.bytes)).map
            Elem.bytes).map Elem.mediate))]) := by
      have hf := sigs_map ops
      have := At.self p
      conv at this => rhs; rw [← hbb]
      rw [hf] at this
      simpa only [List.map_cons, List.map_nil, Token.mediate, Elem.mediate, List.map_map,
        Function.comp_def] using this
    obtain ⟨q1, a1, r1⟩ := dyn_read (pre := []) hat hs
    obtain ⟨q2, a2, r2⟩ := dyn_read (pre := [.dyn _]) hat hs
    have a3 := at_raw (pre := [.dyn _, .dyn _]) hat
    obtain ⟨q4, a4, r4⟩ := dyn_read (pre := [.dyn _, .dyn _, .raw (word quorum)]) hat hs
    simp only [hl, List.map_cons, List.map_nil, List.sum_cons, List.sum_nil, Mediate.headLen,
      Nat.zero_add, Nat.add_zero, Nat.reduceAdd, word_length] at r1 r2 a3 r4
    unfold decodeProof
    rw [r1, r2, r4, addressArray_of_at a1 hs ?_, uintArray_of_at a2 hs ?_,
      uintAt_of_at a3 (lt_pow_of_le hq), bytesArray_of_at a4 hs]
    · intro x hx
      obtain ⟨o, ho, rfl⟩ := List.mem_map.mp hx
      exact hwt o ho
    · intro x hx
      obtain ⟨o, ho, rfl⟩ := List.mem_map.mp hx
      exact h20 o ho
  · rw [← hops]
    exact hperm.map _

/-- C59, C61: the calldata of the proof is the call `execute(bytes)`, whose argument holds the data that was
signed and a proof that lists exactly the given signers: addresses ascending, each weight at the position of
its address, the quorum, and the signatures of those who have one, in the same order. -/
theorem C61_execute_abi (X : Ext) (d : Data) (hd : DataOk d) (quorum : Nat) (hq : quorum ≤ u256Max)
    (signers : List (Signer × Option Signature)) (hw : ∀ e ∈ signers, e.1.weight ≤ u256Max)
    (calldata digest : Bytes) (hdig : msgDigest X d = .ok digest)
    (h : encodeExecuteData X d quorum signers = .ok calldata) :
    ∃ data proof, decodeCalldata calldata =
        some ((X.keccak (utf8Bytes "execute(bytes)".toList)).take 4, data, proof) ∧
      encode d = .ok data ∧ decodeData data = some d ∧
      ∃ ops : List Operator,
        decodeProof proof = some (ops.map Operator.address, ops.map Operator.weight, quorum,
          ops.filterMap (fun o => o.signature.map Signature.bytes)) ∧
        (ops.map Operator.address).Pairwise (· ≤ ·) ∧
        (ops.map (fun o => ((Except.ok o.address : Except Err Bytes), o.weight, o.signature))).Perm
          (signers.map (fun e => (evmAddress X e.1.pubKey.bytes, e.1.weight,
            proofSignature X digest e.1.pubKey e.2))) := by
  unfold encodeExecuteData at h
  rw [hdig] at h
  simp only at h
  cases hb : encode d with
  | error e => rw [hb] at h; simp at h
  | ok b =>
  rw [hb] at h
  simp only at h
  cases hp : encodeProof X quorum (recoverableSigners X digest add27 signers) with
  | error e => rw [hp] at h; simp at h
  | ok p =>
  rw [hp] at h
  simp only at h
  cases hpar : ethabiEncode [.elem (.bytes b), .elem (.bytes p)] with
  | error e => rw [hpar] at h; simp at h
  | ok param =>
  rw [hpar] at h
  simp only at h
  cases hin : ethabiEncode [.elem (.bytes param)] with
  | error e => rw [hin] at h; simp at h
  | ok input =>
  rw [hin] at h
  simp only [Except.ok.injEq] at h
  subst h
  refine ⟨b, p, ?_, rfl, C59_data_roundtrip d hd b hb, ?_⟩
  · have hsel : (selector X).length = 4 := by
      unfold selector; rw [List.length_take, X.keccak_length]; rfl
    have h1 := (At.zero (selector X) input).slice
    rw [hsel] at h1
    have h2 : (selector X ++ input).drop 4 = input := by
      rw [← hsel]; exact List.drop_left
    obtain ⟨e1, l1⟩ := ethabi_ok.mp hin
    obtain ⟨e2, l2⟩ := ethabi_ok.mp hpar
    have hat1 : At input 0 (headTail [.dyn (word param.length ++ pad32 param)]) := by
      have := At.self input
      conv at this => rhs; rw [← e1]
      simpa only [List.map_cons, List.map_nil, Token.mediate, Elem.mediate] using this
    have hat2 : At param 0 (headTail [.dyn (word b.length ++ pad32 b),
        .dyn (word p.length ++ pad32 p)]) := by
      have := At.self param
      conv at this => rhs; rw [← e2]
      simpa only [List.map_cons, List.map_nil, Token.mediate, Elem.mediate] using this
    obtain ⟨q1, a1, r1⟩ := dyn_read (pre := []) hat1 (small l1)
    obtain ⟨q2, a2, r2⟩ := dyn_read (pre := []) hat2 (small l2)
    obtain ⟨q3, a3, r3⟩ := dyn_read (pre := [.dyn _]) hat2 (small l2)
    simp only [hl, List.map_cons, List.map_nil, List.sum_cons, List.sum_nil, Mediate.headLen,
      Nat.zero_add, Nat.add_zero] at r1 r2 r3
    unfold decodeCalldata
    rw [h1, h2, r1, bytesAt_of_at a1 (small l1)]
    simp only
    rw [r2, r3, bytesAt_of_at a2 (small l2), bytesAt_of_at a3 (small l2)]
    rfl
  · obtain ⟨ops, h1, h2, h3⟩ := proof_decodes hq (recoverable_weights hw) hp
    refine ⟨ops, h1, h2, ?_⟩
    rw [← recoverable_map]
    exact h3

end Amp.Encoding.Abi
