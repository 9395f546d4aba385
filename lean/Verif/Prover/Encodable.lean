import Verif.Encoding.BcsTotal
import Verif.Prover.Signed

/-!
# C85: when batches and payloads can be encoded

The encoders abort on a number of inputs.  These are all of them.
-/

namespace Amp.Prover

open Amp.Encoding
open Amp.Multisig (Signature PublicKey Signer WorkerSet)
open Amp.Router (CCId Message ChainName)

/-! ### Specification -/

/-- the destination address of the message is one of the destination chain: 20 bytes in hexadecimal on EVM chains (as
`ethereum_types` reads them), 32 bytes on Sui -/
def Addressable (X : Ext) (enc : Encoder) (m : Message) : Prop :=
  match enc with
  | .abi => (X.parseH160 m.destinationAddress).isSome
  | .bcs => ∃ a, decodeHex (Bcs.stripPrefix m.destinationAddress) = some a ∧ a.length = 32

/-- the key can be named on the destination chain: on EVM chains it must be a point of the curve -/
def Nameable (X : Ext) (enc : Encoder) (k : PublicKey) : Prop :=
  match enc with
  | .abi => (X.uncompress k.bytes).isSome
  | .bcs => True

/-- the destination chain knows numbers up to this -/
def maxWeight : Encoder → Nat
  | .abi => u256Max
  | .bcs => u128Max

/-- the id of the destination chain fits -/
def ChainIdFits (enc : Encoder) (id : Nat) : Prop :=
  match enc with
  | .abi => True
  | .bcs => id ≤ u64Max

/-- the length of what a batch takes from the messages, in bytes -/
def textSize (msgs : List Message) : Nat :=
  (msgs.map (fun m => (utf8Bytes m.ccId.chain).length + (utf8Bytes m.sourceAddress).length +
    m.payloadHash.length)).sum

/-- the signers of the set can be named on the destination chain -/
structure SetEncodable (X : Ext) (enc : Encoder) (ws : WorkerSet) : Prop where
  keys : ∀ e ∈ ws.signers, Nameable X enc e.2.pubKey
  weights : ∀ e ∈ ws.signers, e.2.weight ≤ maxWeight enc
  threshold : ws.threshold ≤ maxWeight enc

/-- keys of members have one of the lengths of keys -/
def KeysSized (ws : WorkerSet) : Prop := ∀ e ∈ ws.signers, e.2.pubKey.bytes.length ≤ 65

/-- the number of signers of the new set, if any -/
def newSigners : Option WorkerSet → Nat
  | none => 0
  | some ws => ws.signers.length

/-! ### Helper lemmas -/

theorem makeCommand_total (X : Ext) (enc : Encoder) (m : Message) (ha : Addressable X enc m)
    (hs : (utf8Bytes m.ccId.chain).length + (utf8Bytes m.sourceAddress).length + m.payloadHash.length + 317 < 2 ^ 31) :
    ∃ c, makeCommand X enc m = .ok c ∧ c.id.length = 32 ∧ c.params.length ≤
      317 + ((utf8Bytes m.ccId.chain).length + (utf8Bytes m.sourceAddress).length + m.payloadHash.length) := by
  unfold makeCommand
  cases enc with
  | abi =>
    obtain ⟨a, ha⟩ := Option.isSome_iff_exists.mp ha
    obtain ⟨b, h1, h2⟩ := Abi.commandParams_total X m.ccId.chain m.sourceAddress m.destinationAddress m.payloadHash a ha
      (by omega)
    simp only [h1]
    exact ⟨_, rfl, X.keccak_length _, by simp only; omega⟩
  | bcs =>
    obtain ⟨a, ha, h32⟩ := ha
    obtain ⟨b, h1, h2⟩ := Bcs.commandParams_total m.ccId.chain m.sourceAddress m.destinationAddress m.payloadHash a ha h32
      (by unfold Bcs.maxSeqLen; omega)
    simp only [h1]
    exact ⟨_, rfl, X.keccak_length _, by simp only; omega⟩

theorem makeTransfer_total (X : Ext) (enc : Encoder) (ws : WorkerSet) (h : SetEncodable X enc ws) (hk : KeysSized ws)
    (hs : 160 + 86 * ws.signers.length < 2 ^ 31) :
    ∃ c, makeTransfer X enc ws = .ok c ∧ c.id.length = 32 ∧ c.params.length ≤ 160 + 86 * ws.signers.length := by
  unfold makeTransfer
  cases enc with
  | abi =>
    obtain ⟨b, h1, h2⟩ := Abi.transfer_total X ws h.keys (by omega)
    simp only [h1]
    exact ⟨_, rfl, X.wsHash_length _, by simp only; omega⟩
  | bcs =>
    obtain ⟨b, h1, h2⟩ := Bcs.transfer_total ws hk h.weights h.threshold (by unfold Bcs.maxSeqLen; omega)
    simp only [h1]
    exact ⟨_, rfl, X.wsHash_length _, by simp only; omega⟩

/-- the commands of a batch are as long as expected -/
theorem commands_total (X : Ext) (enc : Encoder) (msgs : List Message) (ha : ∀ m ∈ msgs, Addressable X enc m)
    (hs : 317 * msgs.length + textSize msgs < 2 ^ 31) :
    ∃ cs, mapE (makeCommand X enc) msgs = .ok cs ∧ cs.length = msgs.length ∧ (∀ c ∈ cs, c.id.length = 32) ∧
      (cs.map (fun c => c.params.length)).sum ≤ 317 * msgs.length + textSize msgs := by
  induction msgs with
  | nil => exact ⟨[], rfl, rfl, by simp, by simp⟩
  | cons m t ih =>
    have ht : textSize (m :: t) = (utf8Bytes m.ccId.chain).length + (utf8Bytes m.sourceAddress).length +
        m.payloadHash.length + textSize t := by simp [textSize]
    rw [ht, List.length_cons] at hs
    obtain ⟨cs, h1, h2, h3, h4⟩ := ih (fun x hx => ha x (List.mem_cons_of_mem _ hx)) (by omega)
    obtain ⟨c, g1, g2, g3⟩ := makeCommand_total X enc m (ha m List.mem_cons_self) (by omega)
    refine ⟨c :: cs, mapE_cons_ok.mpr ⟨c, cs, g1, h1, rfl⟩, by simp [h2], ?_, ?_⟩
    · intro x hx
      rcases List.mem_cons.mp hx with rfl | hx
      · exact g2
      · exact h3 x hx
    · rw [ht, List.map_cons, List.sum_cons, List.length_cons]
      omega

theorem approvals_of_spec {X : Ext} {enc : Encoder} {msgs : List Message} {cs : List Command}
    (h : List.Forall₂ (IsApproval X enc) msgs cs) : mapE (makeCommand X enc) msgs = .ok cs := by
  induction h with
  | nil => rfl
  | @cons m c ms cs h1 _ ih =>
    refine mapE_cons_ok.mpr ⟨c, cs, ?_, ih, rfl⟩
    obtain ⟨h2, h3, h4⟩ := h1
    obtain ⟨id, ty, params⟩ := c
    simp only at h2 h3 h4
    subst h2 h3
    unfold makeCommand
    cases enc <;> simp only at h4 <;> simp only [h4]

/-- the batch of the specification is the one that is built -/
theorem build_of_spec {X : Ext} {cfg : Config} {ws : Option WorkerSet} {msgs : List Message} {b : Batch}
    (h : IsBatch X cfg ws msgs b) :
    buildBatch X cfg ws msgs = .ok ⟨batchId X (msgs.map (·.ccId)) ws, b.messageIds, b.data, cfg.encoder⟩ := by
  obtain ⟨transfer, approvals, h1, h2, h3⟩ := h.commands
  have hm := approvals_of_spec h3
  have hdata : b.data = ⟨cfg.destinationChainId, transfer ++ approvals⟩ := by
    rw [← h1, ← h.chainId]
  unfold buildBatch
  cases ws with
  | none =>
    simp only at h2
    simp only [hm, h.ids, hdata, h2]
  | some w =>
    simp only at h2
    obtain ⟨c, rfl, h4, h5, h6⟩ := h2
    have hc : makeTransfer X cfg.encoder w = .ok c := by
      obtain ⟨id, ty, params⟩ := c
      simp only at h4 h5 h6
      subst h4 h5
      unfold makeTransfer
      cases hE : cfg.encoder <;> rw [hE] at h6 <;> simp only at h6 <;> simp only [h6]
    simp only [hc, hm, h.ids, hdata]

theorem addressable_of_command {X : Ext} {enc : Encoder} {m : Message} {c : Command}
    (h : makeCommand X enc m = .ok c) : Addressable X enc m := by
  unfold makeCommand at h
  cases enc with
  | abi =>
    simp only at h
    unfold Addressable
    simp only
    unfold Abi.commandParams at h
    cases hp : X.parseH160 m.destinationAddress with
    | none => rw [hp] at h; simp at h
    | some a => rfl
  | bcs =>
    simp only at h
    unfold Addressable
    simp only
    unfold Bcs.commandParams at h
    cases hp : decodeHex (Bcs.stripPrefix m.destinationAddress) with
    | none => rw [hp] at h; simp at h
    | some a =>
      refine ⟨a, rfl, ?_⟩
      rw [hp] at h
      simp only at h
      by_contra hne
      rw [if_neg hne] at h
      simp at h

theorem encodable_of_transfer {X : Ext} {enc : Encoder} {ws : WorkerSet} {c : Command}
    (h : makeTransfer X enc ws = .ok c) : ∀ e ∈ ws.signers, Nameable X enc e.2.pubKey := by
  intro e he
  unfold makeTransfer at h
  cases enc with
  | bcs => trivial
  | abi =>
    simp only at h
    unfold Nameable
    simp only
    unfold Abi.transferOperatorshipParams at h
    cases ho : Abi.operatorsOf X ws with
    | error x => rw [ho] at h; simp at h
    | ok l =>
      obtain ⟨b, _, hb⟩ := mapE_mem ho he
      cases hu : X.uncompress e.2.pubKey.bytes with
      | none => simp [Abi.evmAddress, hu] at hb
      | some p => rfl

/-- the encoded content of a batch is as long as expected -/
theorem batch_total (X : Ext) (cfg : Config) (o : Option WorkerSet) (msgs : List Message)
    (hset : ∀ ws, o = some ws → SetEncodable X cfg.encoder ws ∧ KeysSized ws)
    (ha : ∀ m ∈ msgs, Addressable X cfg.encoder m) (hc : ChainIdFits cfg.encoder cfg.destinationChainId)
    (hs : 1000 * (1 + msgs.length + newSigners o) + textSize msgs < 2 ^ 31) :
    ∃ b x, buildBatch X cfg o msgs = .ok b ∧ (match cfg.encoder with
      | .abi => Abi.encode b.data = .ok x
      | .bcs => Bcs.encode b.data = .ok x) ∧
      x.length + 200 ≤ 1000 * (1 + msgs.length + newSigners o) + textSize msgs := by
  obtain ⟨cs, h1, h2, h3, h4⟩ := commands_total X cfg.encoder msgs ha (by omega)
  have key : ∀ transfer : List Command, transfer.length ≤ 1 → (∀ c ∈ transfer, c.id.length = 32) →
      (transfer.map (fun c => c.params.length)).sum ≤ 160 + 86 * newSigners o →
      ∃ x, (match cfg.encoder with
        | .abi => Abi.encode ⟨cfg.destinationChainId, transfer ++ cs⟩ = .ok x
        | .bcs => Bcs.encode ⟨cfg.destinationChainId, transfer ++ cs⟩ = .ok x) ∧
        x.length + 200 ≤ 1000 * (1 + msgs.length + newSigners o) + textSize msgs := by
    intro tr g1 g2 g3
    have hid : ∀ c ∈ (⟨cfg.destinationChainId, tr ++ cs⟩ : Data).commands, c.id.length = 32 := by
      intro c hc
      rcases List.mem_append.mp hc with h | h
      · exact g2 c h
      · exact h3 c h
    have hlen : (⟨cfg.destinationChainId, tr ++ cs⟩ : Data).commands.length ≤ 1 + msgs.length := by
      simp only [List.length_append]
      omega
    have hsum : ((⟨cfg.destinationChainId, tr ++ cs⟩ : Data).commands.map (fun c => c.params.length)).sum ≤
        160 + 86 * newSigners o + (317 * msgs.length + textSize msgs) := by
      simp only [List.map_append, List.sum_append]
      omega
    cases hE : cfg.encoder with
    | abi =>
      obtain ⟨x, k1, k2⟩ := Abi.encode_data_total _ hid (by omega)
      exact ⟨x, k1, by omega⟩
    | bcs =>
      rw [hE] at hc
      obtain ⟨x, k1, k2⟩ := Bcs.encode_data_total ⟨cfg.destinationChainId, tr ++ cs⟩ hc hid (by unfold Bcs.maxSeqLen; omega)
      exact ⟨x, k1, by omega⟩
  unfold buildBatch
  cases o with
  | none =>
    obtain ⟨x, k1, k2⟩ := key [] (by simp) (by simp) (by simp)
    simp only [h1]
    exact ⟨_, x, rfl, k1, k2⟩
  | some ws =>
    obtain ⟨hse, hks⟩ := hset ws rfl
    have hn : newSigners (some ws) = ws.signers.length := rfl
    rw [hn] at hs
    obtain ⟨c, g1, g2, g3⟩ := makeTransfer_total X cfg.encoder ws hse hks (by omega)
    obtain ⟨x, k1, k2⟩ := key [c] (by simp) (by simpa using g2) (by simpa [hn] using g3)
    simp only [g1, h1]
    exact ⟨_, x, rfl, k1, k2⟩

theorem dataDigest_of_encode {X : Ext} {enc : Encoder} {d : Data} {x : Bytes} (h : match enc with
      | .abi => Abi.encode d = .ok x
      | .bcs => Bcs.encode d = .ok x) : ∃ g, dataDigest X enc d = .ok g ∧ g.length = 32 := by
  unfold dataDigest
  cases enc with
  | abi => exact Abi.digest_total X d h
  | bcs => exact Bcs.digest_total X d h

/-- the payload can be encoded if the content can -/
theorem payload_total (X : Ext) (C : Multisig.Crypto) (enc : Encoder) (d : Data) {x : Bytes}
    (h2 : match enc with
      | .abi => Abi.encode d = .ok x
      | .bcs => Bcs.encode d = .ok x) (cur : WorkerSet) (hcur : SetEncodable X enc cur) (hsized : KeysSized cur) (digest : Bytes)
    (signers : List (Signer × Option Signature)) (hmem : ∀ e ∈ signers, ∃ a, (a, e.1) ∈ cur.signers)
    (hlen : signers.length = cur.signers.length)
    (hv : ∀ sg sig, (sg, some sig) ∈ signers → Multisig.Valid C digest sg.pubKey sig)
    (hs : x.length + 200 + 500 * cur.signers.length < 2 ^ 31) :
    ∃ r, executeDataOf X enc d cur.threshold signers = .ok r := by
  have hsig : ∀ e ∈ signers, ∀ s, e.2 = some s → s.bytes.length ≤ 65 ∧ ∀ b, s = .ecdsa b → b.length ≤ 64 := by
    intro e he s hes
    obtain ⟨sg, sig⟩ := e
    simp only at hes
    subst hes
    have := hv sg s he
    unfold Multisig.Valid at this
    split at this
    · exact ⟨by simp only [Signature.bytes]; omega, by intro b hb; simp only [Signature.ecdsa.injEq] at hb; subst hb; omega⟩
    · exact ⟨by simp only [Signature.bytes]; omega, by simp⟩
    · exact ⟨by simp only [Signature.bytes]; omega, by simp⟩
    · exact this.elim
  unfold executeDataOf
  cases enc with
  | abi =>
    simp only at h2 ⊢
    refine Abi.executeData_total X d cur.threshold signers h2 ?_ hsig (by omega)
    intro e he
    obtain ⟨a, ha⟩ := hmem e he
    exact hcur.keys _ ha
  | bcs =>
    simp only at h2 ⊢
    refine Bcs.executeData_total X d cur.threshold signers h2 hcur.threshold ?_ ?_ hsig
      (by unfold Bcs.maxSeqLen; omega) (by unfold Bcs.maxSeqLen; omega)
    · intro e he
      obtain ⟨a, ha⟩ := hmem e he
      exact hsized _ ha
    · intro e he
      obtain ⟨a, ha⟩ := hmem e he
      exact hcur.weights _ ha

/-- the length of the parameters of a batch, in bytes -/
def dataSize (d : Data) : Nat := (d.commands.map (fun c => c.params.length)).sum

theorem ids_length {X : Ext} {cfg : Config} {o : Option WorkerSet} {msgs : List Message} {b : Batch}
    (h : IsBatch X cfg o msgs b) : ∀ c ∈ b.data.commands, c.id.length = 32 := by
  obtain ⟨tr, ap, h1, h2, h3⟩ := h.commands
  intro c hmem
  rw [h1] at hmem
  rcases List.mem_append.mp hmem with hc | hc
  · cases o with
    | none => simp only at h2; rw [h2] at hc; simp at hc
    | some ws =>
      simp only at h2
      obtain ⟨c', rfl, _, h, _⟩ := h2
      rw [List.mem_singleton] at hc
      subst hc
      rw [h]
      exact X.wsHash_length _
  · clear h1 h2 h
    clear hmem
    induction h3 with
    | nil => simp at hc
    | cons h _ ih =>
      rcases List.mem_cons.mp hc with rfl | hc
      · rw [h.2.1]; exact X.keccak_length _
      · exact ih hc

/-- the content of a batch can be encoded -/
theorem data_total {X : Ext} {cfg : Config} {o : Option WorkerSet} {msgs : List Message} {b : Batch}
    (h : IsBatch X cfg o msgs b) (hc : ChainIdFits cfg.encoder cfg.destinationChainId)
    (hs : 300 + 400 * b.data.commands.length + dataSize b.data < 2 ^ 31) :
    ∃ x, (match cfg.encoder with
      | .abi => Abi.encode b.data = .ok x
      | .bcs => Bcs.encode b.data = .ok x) ∧ x.length ≤ 300 + 400 * b.data.commands.length + dataSize b.data := by
  have hid := ids_length h
  unfold dataSize at hs ⊢
  cases hE : cfg.encoder with
  | abi =>
    obtain ⟨x, k1, k2⟩ := Abi.encode_data_total _ hid (by omega)
    exact ⟨x, k1, by omega⟩
  | bcs =>
    rw [hE] at hc
    obtain ⟨x, k1, k2⟩ := Bcs.encode_data_total b.data (by rw [h.chainId]; exact hc) hid
      (by unfold Bcs.maxSeqLen; omega)
    exact ⟨x, k1, by omega⟩

/-! ### C85 -/

/-- C85: a batch within the size limits can be made, and has a digest, exactly if all destination addresses are
addresses of the destination chain and the keys of the new worker set, if any, can be named there. -/
theorem C85_batch (X : Ext) (cfg : Config) (o : Option WorkerSet) (msgs : List Message)
    (hsize : ∀ ws, o = some ws → KeysSized ws ∧ (∀ e ∈ ws.signers, e.2.weight ≤ maxWeight cfg.encoder) ∧
      ws.threshold ≤ maxWeight cfg.encoder)
    (hc : ChainIdFits cfg.encoder cfg.destinationChainId)
    (hs : 1000 * (1 + msgs.length + newSigners o) + textSize msgs < 2 ^ 31) :
    (∃ b digest, IsBatch X cfg o msgs b ∧ dataDigest X cfg.encoder b.data = .ok digest ∧ digest.length = 32) ↔
      (∀ m ∈ msgs, Addressable X cfg.encoder m) ∧
      ∀ ws, o = some ws → ∀ e ∈ ws.signers, Nameable X cfg.encoder e.2.pubKey := by
  constructor
  · rintro ⟨b, g, hb, _, _⟩
    have hbuild := build_of_spec hb
    unfold buildBatch at hbuild
    have hmsgs : ∃ cs, mapE (makeCommand X cfg.encoder) msgs = .ok cs := by
      obtain ⟨_, cs, _, _, h⟩ := hb.commands
      exact ⟨cs, approvals_of_spec h⟩
    obtain ⟨cs, hcs⟩ := hmsgs
    refine ⟨?_, ?_⟩
    · intro m hm
      obtain ⟨c, _, hc⟩ := mapE_mem hcs hm
      exact addressable_of_command hc
    · rintro ws rfl
      simp only at hbuild
      cases ht : makeTransfer X cfg.encoder ws with
      | error e => rw [ht] at hbuild; simp at hbuild
      | ok c => exact encodable_of_transfer ht
  · rintro ⟨ha, hk⟩
    obtain ⟨b, x, h1, h2, _⟩ := batch_total X cfg o msgs (fun ws hws =>
      ⟨⟨hk ws hws, (hsize ws hws).2.1, (hsize ws hws).2.2⟩, (hsize ws hws).1⟩) ha hc hs
    obtain ⟨g, hg, hl⟩ := dataDigest_of_encode (X := X) h2
    exact ⟨b, g, (isBatch_build h1).1, hg, hl⟩

/-- C85: once a quorum has signed, the payload for the destination chain can be encoded: whatever valid signatures are
included, if the keys of the signers can be named on the destination chain. -/
theorem C85_payload (X : Ext) (C : Multisig.Crypto) (cfg : Config) (o : Option WorkerSet) (msgs : List Message)
    (b : Batch) (hb : IsBatch X cfg o msgs b)
    (hsize : ∀ ws, o = some ws → KeysSized ws ∧ (∀ e ∈ ws.signers, e.2.weight ≤ maxWeight cfg.encoder) ∧
      ws.threshold ≤ maxWeight cfg.encoder)
    (hc : ChainIdFits cfg.encoder cfg.destinationChainId) (cur : WorkerSet)
    (hs : 1000 * (1 + msgs.length + newSigners o + cur.signers.length) + textSize msgs < 2 ^ 31)
    (hcur : SetEncodable X cfg.encoder cur) (hsized : KeysSized cur) (digest : Bytes)
    (signers : List (Signer × Option Signature)) (hmem : ∀ e ∈ signers, ∃ a, (a, e.1) ∈ cur.signers)
    (hlen : signers.length = cur.signers.length)
    (hv : ∀ sg sig, (sg, some sig) ∈ signers → Multisig.Valid C digest sg.pubKey sig) :
    ∃ d, executeDataOf X cfg.encoder b.data cur.threshold signers = .ok d := by
  have hbuild := build_of_spec hb
  have ha : ∀ m ∈ msgs, Addressable X cfg.encoder m := by
    obtain ⟨_, cs, _, _, h⟩ := hb.commands
    intro m hm
    obtain ⟨c, _, hc⟩ := mapE_mem (approvals_of_spec h) hm
    exact addressable_of_command hc
  have hk : ∀ ws, o = some ws → ∀ e ∈ ws.signers, Nameable X cfg.encoder e.2.pubKey := by
    rintro ws rfl
    unfold buildBatch at hbuild
    simp only at hbuild
    cases ht : makeTransfer X cfg.encoder ws with
    | error e => rw [ht] at hbuild; simp at hbuild
    | ok c => exact encodable_of_transfer ht
  obtain ⟨b', x, h1, h2, h3⟩ := batch_total X cfg o msgs (fun ws hws =>
    ⟨⟨hk ws hws, (hsize ws hws).2.1, (hsize ws hws).2.2⟩, (hsize ws hws).1⟩) ha hc (by omega)
  rw [hbuild] at h1
  simp only [Except.ok.injEq] at h1
  subst h1
  simp only at h2
  exact payload_total X C cfg.encoder b.data h2 cur hcur hsized digest signers hmem hlen hv (by omega)

end Amp.Prover
