import Verif.Encoding.BcsLemmas
import Verif.Encoding.Sort

/-!
# C60 and the Sui part of C61: the BCS encoding
-/

namespace Amp.Encoding.Bcs

open Amp.Multisig (Signature PublicKey Signer WorkerSet)

/-- two different inputs with the same hash -/
def Collision (H : Bytes → Bytes) (x y : Bytes) : Prop := x ≠ y ∧ H x = H y

/-! ### C60: the data -/

/-- C60: decoding the signed data, as the destination gateway does, gives back the chain id and every
command's id, type and parameters, in order, and nothing is left over. -/
theorem C60_data_roundtrip (d : Data) (b : Bytes) (h : encode d = .ok b) : decodeData b = some d := by
  unfold encode at h
  cases hc : toU64 d.destinationChainId with
  | error e => rw [hc] at h; simp at h
  | ok chainId =>
  rw [hc] at h
  simp only at h
  cases hi : mapE (fun c : Command => makeCommandId c.id) d.commands with
  | error e => rw [hi] at h; simp at h
  | ok ids =>
  rw [hi] at h
  simp only at h
  obtain ⟨rfl, hlt⟩ := toU64_ok hc
  obtain ⟨rfl, h32⟩ := mapE_same (g := fun c : Command => c.id) (P := fun b => b.length = 32)
    (by
      intro a b hab
      unfold makeCommandId at hab
      split at hab
      · rename_i hl
        simp only [Except.ok.injEq] at hab
        subst hab
        exact ⟨rfl, hl⟩
      · simp at hab) hi
  obtain ⟨a0, c0, e0, h0, rfl⟩ := cat_cons_ok.mp (expectB_ok h)
  obtain ⟨a1, c1, e1, h1, rfl⟩ := cat_cons_ok.mp h0
  obtain ⟨a2, c2, e2, h2, rfl⟩ := cat_cons_ok.mp h1
  obtain ⟨a3, c3, e3, h3, rfl⟩ := cat_cons_ok.mp h2
  rw [cat_nil_ok] at h3
  subst h3
  simp only [Except.ok.injEq] at e0
  subst e0
  have e2' : seqB ((d.commands.map (fun c => utf8Bytes c.ty.show)).map bytesB) = .ok a2 := by
    rw [List.map_map]; exact e2
  have e3' : seqB ((d.commands.map (fun c => c.params)).map bytesB) = .ok a3 := by
    rw [List.map_map]; exact e3
  unfold decodeData
  rw [show u64B d.destinationChainId = le 8 d.destinationChainId from rfl, reads_LE hlt]
  simp only
  rw [reads_fixedVec h32 e1]
  simp only
  rw [reads_bytesVec e2']
  simp only
  rw [reads_bytesVec e3']
  simp only [if_true, List.map_map]
  rw [allSome_map (g := fun c => c.ty) (fun c _ => commandType_show c.ty)]
  simp only [zipCommands_ok]

/-- C60: equal encodings mean equal data. -/
theorem C60_injective (d d' : Data) (b : Bytes) (h : encode d = .ok b) (h' : encode d' = .ok b) :
    d = d' := by
  have h1 := C60_data_roundtrip d b h
  rw [C60_data_roundtrip d' b h'] at h1
  simpa using h1.symm

/-- C60: equal digests mean equal data, unless a collision of the hash function has been found. -/
theorem C60_digest (X : Ext) (d d' : Data) (g b b' : Bytes)
    (hb : encode d = .ok b) (hb' : encode d' = .ok b') (h : msgDigest X d = .ok g)
    (h' : msgDigest X d' = .ok g) :
    d = d' ∨ Collision X.keccak (digestPrefix ++ b) (digestPrefix ++ b') := by
  unfold msgDigest at h h'
  rw [hb] at h
  rw [hb'] at h'
  simp only [Except.ok.injEq] at h h'
  by_cases h1 : digestPrefix ++ b = digestPrefix ++ b'
  · have h2 : b = b' := List.append_cancel_left h1
    subst h2
    exact Or.inl (C60_injective d d' b hb hb')
  · exact Or.inr ⟨h1, by rw [h, h']⟩

/-! ### C60: the parameters of commands -/

/-- C60: the parameters of an approval determine the source chain, the source address, the destination
address and the payload hash. -/
theorem C60_approval_roundtrip (chain src dst : Str) (payload b : Bytes)
    (h : commandParams chain src dst payload = .ok b) :
    ∃ a, decodeHex (stripPrefix dst) = some a ∧ a.length = 32 ∧
      decodeCommandParams b = some (utf8Bytes chain, utf8Bytes src, a, payload) := by
  unfold commandParams at h
  cases ha : decodeHex (stripPrefix dst) with
  | none => rw [ha] at h; simp at h
  | some a =>
  rw [ha] at h
  simp only at h
  by_cases hl : a.length = 32
  · rw [if_pos hl] at h
    refine ⟨a, rfl, hl, ?_⟩
    obtain ⟨a0, c0, e0, h0, rfl⟩ := cat_cons_ok.mp (expectB_ok h)
    obtain ⟨a1, c1, e1, h1, rfl⟩ := cat_cons_ok.mp h0
    obtain ⟨a2, c2, e2, h2, rfl⟩ := cat_cons_ok.mp h1
    obtain ⟨a3, c3, e3, h3, rfl⟩ := cat_cons_ok.mp h2
    rw [cat_nil_ok] at h3
    subst h3
    simp only [Except.ok.injEq] at e2
    subst e2
    have r2 := reads_N a
    rw [hl] at r2
    unfold decodeCommandParams
    rw [reads_bytes e0]
    simp only
    rw [reads_bytes e1]
    simp only
    rw [r2]
    simp only
    rw [reads_bytes e3]
    rfl
  · rw [if_neg hl] at h
    simp at h

/-- C60: approvals with equal parameters are for the same source chain, source address and payload hash, and
for the same 32-byte destination address. -/
theorem C60_approval_injective (chain src dst chain' src' dst' : Str) (payload payload' b : Bytes)
    (h : commandParams chain src dst payload = .ok b)
    (h' : commandParams chain' src' dst' payload' = .ok b) :
    chain = chain' ∧ src = src' ∧ decodeHex (stripPrefix dst) = decodeHex (stripPrefix dst') ∧
      payload = payload' := by
  obtain ⟨a, h1, _, h2⟩ := C60_approval_roundtrip chain src dst payload b h
  obtain ⟨a', h1', _, h2'⟩ := C60_approval_roundtrip chain' src' dst' payload' b h'
  rw [h2] at h2'
  simp only [Option.some.injEq, Prod.mk.injEq] at h2'
  obtain ⟨e1, e2, e3, e4⟩ := h2'
  exact ⟨utf8Bytes_inj e1, utf8Bytes_inj e2, by rw [h1, h1', e3], e4⟩

/-! ### C61: operators -/

theorem weights_ok {α : Type} {f : α → Nat} {l : List α} {ws : List Nat}
    (h : mapE (fun o => toU128 (f o)) l = .ok ws) : ws = l.map f ∧ ∀ w ∈ ws, w < 256 ^ 16 :=
  mapE_same (fun a b hab => by
    obtain ⟨e1, e2⟩ := toU128_ok hab
    exact ⟨e1, by rw [e1]; exact e2⟩) h

/-- operators, weights and a threshold are read back from their encoding -/
theorem operatorship_roundtrip {ops : List (Bytes × Nat)} {weights : List Nat} {t : Nat} {b : Bytes}
    (hw2 : ∀ w ∈ weights, w < 256 ^ 16) (htlt : t < 256 ^ 16)
    (h : cat [seqB (ops.map (fun o => bytesB o.1)), seqB (weights.map (fun w => .ok (u128B w))), .ok (u128B t)] =
      .ok b) :
    decodeOperatorship b = some (ops.map Prod.fst, weights, t) := by
  obtain ⟨a0, c0, e0, h0, rfl⟩ := cat_cons_ok.mp h
  obtain ⟨a1, c1, e1, h1, rfl⟩ := cat_cons_ok.mp h0
  obtain ⟨a2, c2, e2, h2, rfl⟩ := cat_cons_ok.mp h1
  rw [cat_nil_ok] at h2
  subst h2
  simp only [Except.ok.injEq] at e2
  subst e2
  have e0' : seqB ((ops.map Prod.fst).map bytesB) = .ok a0 := by rw [List.map_map]; exact e0
  unfold decodeOperatorship
  rw [reads_bytesVec e0']
  simp only
  rw [reads_leVec hw2 e1]
  simp only
  rw [show u128B t = le 16 t from rfl, reads_LE htlt]
  rfl

/-- C61: an operatorship transfer lists exactly the signers of the new worker set - each public key with its
weight at the same position -, in ascending order of keys, and its threshold. -/
theorem C61_transfer_bcs (ws : WorkerSet) (b : Bytes) (h : transferOperatorshipParams ws = .ok b) :
    ∃ ops : List (Bytes × Nat),
      decodeOperatorship b = some (ops.map Prod.fst, ops.map Prod.snd, ws.threshold) ∧
      (ops.map Prod.fst).Pairwise (· ≤ ·) ∧
      ops.Perm (ws.signers.map (fun e => (e.2.pubKey.bytes, e.2.weight))) := by
  unfold transferOperatorshipParams at h
  dsimp only at h
  have hperm := sortByAddr_perm (operatorsOf ws)
  have hsort := sortByAddr_sorted (operatorsOf ws)
  revert h hperm hsort
  generalize Std.sortByAddr (operatorsOf ws) = ops
  intro h hperm hsort
  refine ⟨ops, ?_, hsort, hperm⟩
  cases hw : mapE (fun o : Bytes × Nat => toU128 o.2) ops with
  | error e => rw [hw] at h; simp at h
  | ok weights =>
  rw [hw] at h
  simp only at h
  cases ht : toU128 ws.threshold with
  | error e => rw [ht] at h; simp at h
  | ok t =>
  rw [ht] at h
  simp only at h
  obtain ⟨hw1, hw2⟩ := weights_ok hw
  obtain ⟨rfl, htlt⟩ := toU128_ok ht
  rw [operatorship_roundtrip hw2 htlt h, hw1]

/-- C61: the operators sent to the verifier are the same, in the same order. -/
theorem C61_operators_bcs (ws : WorkerSet) :
    (makeOperators ws).threshold = ws.threshold ∧
      ((makeOperators ws).weights.map Prod.fst).Pairwise (· ≤ ·) ∧
      (makeOperators ws).weights.Perm (ws.signers.map (fun e => (e.2.pubKey.bytes, e.2.weight))) :=
  ⟨rfl, sortByAddr_sorted _, sortByAddr_perm _⟩

/-- the signature a member is listed with in a Sui proof: the recovery id is appended to a plain signature,
which is left out if there is no recovery id -/
def proofSignature (X : Ext) (digest : Bytes) (key : PublicKey) : Option Signature → Option Signature
  | some (.ecdsa b) =>
    match X.recoveryId digest key.bytes b with
    | none => none
    | some r => some (.ecdsaRecoverable (b ++ [r]))
  | s => s

theorem proof_decodes {quorum : Nat} {l : List (Signer × Option Signature)} {p : Bytes}
    (hp : encodeProof quorum l = .ok p) :
    ∃ ops : List Operator,
      decodeProof p = some (ops.map Operator.address, ops.map Operator.weight, quorum,
        ops.filterMap (fun o => o.signature.map Signature.bytes)) ∧
      (ops.map Operator.address).Pairwise (· ≤ ·) ∧
      ops.Perm (l.map (fun e => ⟨e.1.pubKey.bytes, e.1.weight, e.2⟩)) := by
  unfold encodeProof at hp
  dsimp only at hp
  have hperm := sortBy_perm opLe (makeOperatorsWithSigs l)
  have hsort := opLe_sorted (makeOperatorsWithSigs l)
  revert hp hperm hsort
  generalize sortBy opLe (makeOperatorsWithSigs l) = ops
  intro h hperm hsort
  refine ⟨ops, ?_, hsort, hperm⟩
  cases hw : mapE (fun o : Operator => toU128 o.weight) ops with
  | error e => rw [hw] at h; simp at h
  | ok weights =>
  rw [hw] at h
  simp only at h
  cases ht : toU128 quorum with
  | error e => rw [ht] at h; simp at h
  | ok t =>
  rw [ht] at h
  simp only at h
  obtain ⟨hw1, hw2⟩ := weights_ok hw
  obtain ⟨rfl, htlt⟩ := toU128_ok ht
  obtain ⟨a0, c0, e0, h0, rfl⟩ := cat_cons_ok.mp h
  obtain ⟨a1, c1, e1, h1, rfl⟩ := cat_cons_ok.mp h0
  obtain ⟨a2, c2, e2, h2, rfl⟩ := cat_cons_ok.mp h1
  obtain ⟨a3, c3, e3, h3, rfl⟩ := cat_cons_ok.mp h2
  rw [cat_nil_ok] at h3
  subst h3
  simp only [Except.ok.injEq] at e2
  subst e2
  have e0' : seqB ((ops.map Operator.address).map bytesB) = .ok a0 := by rw [List.map_map]; exact e0
  unfold decodeProof
  rw [reads_bytesVec e0']
  simp only
  rw [reads_leVec hw2 e1]
  simp only
  rw [show u128B t = le 16 t from rfl, reads_LE htlt, hw1]
  simp only
  rw [reads_bytesVec e3]
  rfl

/-- C60, C61: the proof's input holds the data that was signed and a proof that lists exactly the given
signers: keys ascending, each weight at the position of its key, the quorum, and the signatures of those who
have one, in the same order. -/
theorem C61_execute_bcs (X : Ext) (d : Data) (quorum : Nat) (signers : List (Signer × Option Signature))
    (input digest : Bytes) (hdig : msgDigest X d = .ok digest)
    (h : encodeExecuteData X d quorum signers = .ok input) :
    ∃ data proof, decodeInput input = some (data, proof) ∧
      encode d = .ok data ∧ decodeData data = some d ∧
      ∃ ops : List Operator,
        decodeProof proof = some (ops.map Operator.address, ops.map Operator.weight, quorum,
          ops.filterMap (fun o => o.signature.map Signature.bytes)) ∧
        (ops.map Operator.address).Pairwise (· ≤ ·) ∧
        ops.Perm (signers.map (fun e => ⟨e.1.pubKey.bytes, e.1.weight,
          proofSignature X digest e.1.pubKey e.2⟩)) := by
  unfold encodeExecuteData at h
  rw [hdig] at h
  simp only at h
  cases hb : encode d with
  | error e => rw [hb] at h; simp at h
  | ok b =>
  rw [hb] at h
  simp only at h
  cases hp : encodeProof quorum (recoverableSigners X digest signers) with
  | error e => rw [hp] at h; simp at h
  | ok p =>
  rw [hp] at h
  simp only at h
  obtain ⟨a0, c0, e0, h0, rfl⟩ := cat_cons_ok.mp h
  obtain ⟨a1, c1, e1, h1, rfl⟩ := cat_cons_ok.mp h0
  rw [cat_nil_ok] at h1
  subst h1
  refine ⟨b, p, ?_, rfl, C60_data_roundtrip d b hb, ?_⟩
  · unfold decodeInput
    rw [reads_bytes e0]
    simp only
    rw [reads_bytes e1]
    rfl
  · obtain ⟨ops, h1, h2, h3⟩ := proof_decodes hp
    refine ⟨ops, h1, h2, ?_⟩
    have : (recoverableSigners X digest signers).map
        (fun e => (⟨e.1.pubKey.bytes, e.1.weight, e.2⟩ : Operator)) =
        signers.map (fun e => ⟨e.1.pubKey.bytes, e.1.weight,
          proofSignature X digest e.1.pubKey e.2⟩) := by
      unfold recoverableSigners
      rw [List.map_map]
      apply List.map_congr_left
      intro e _
      rfl
    rw [← this]
    exact h3

end Amp.Encoding.Bcs
