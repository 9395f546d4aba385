import Verif.Wire.JsonLemmas
import Verif.Wire.Events
import Verif.Wire.TextLemmas

/-! # Lemmas about events as text -/

namespace Amp.Wire

open Amp.Encoding (Bytes)
open Amp.Router (ChainName Lowering)
open Amp.Std (Vote)
open Amp.Multisig (PublicKey)
open Amp.Ampd (readAll lastWith Abci)

/-! ### Attributes -/

theorem base64ToUtf8_encode (s : Str) : base64ToUtf8 (encode64 (utf8Bytes s)) = some s := by
  rw [base64ToUtf8, decode64_encode64 (utf8Bytes_isBytes s), Option.bind_some, decodeUtf8_utf8Bytes]

theorem readAll_map {α β γ : Type} {f : β → Option γ} {g : α → β} {h : α → γ} {l : List α}
    (hl : ∀ a ∈ l, f (g a) = some (h a)) : readAll f (l.map g) = some (l.map h) := by
  induction l with
  | nil => rfl
  | cons a t ih =>
    simp only [List.map_cons, readAll, hl a (by simp), ih (fun a ha => hl a (List.mem_cons_of_mem _ ha))]

theorem readAll_comp {α β γ : Type} {f : β → Option γ} {g : α → β} {h : α → Option γ} {l : List α}
    (hl : ∀ a ∈ l, f (g a) = h a) : readAll f (l.map g) = readAll h l := by
  induction l with
  | nil => rfl
  | cons a t ih =>
    simp only [List.map_cons, readAll, hl a (by simp), ih (fun a ha => hl a (List.mem_cons_of_mem _ ha))]

theorem decodeEvent_publish (finite : Str → Bool) (T : Texts) (kind : Str) (contract : Addr)
    (as : List (Str × Str)) : decodeEvent finite (publish T kind contract as) =
      some ⟨kind, ("_contract_address".toList, attributeValue finite (T.text contract)) ::
        as.map (fun p => (p.1, attributeValue finite p.2))⟩ := by
  have key := readAll_map (f := keyValue finite)
    (g := fun p : Str × Str => (encode64 (utf8Bytes p.1), encode64 (utf8Bytes p.2)))
    (h := fun p => (p.1, attributeValue finite p.2))
    (l := ("_contract_address".toList, T.text contract) :: as)
    (fun p _ => by simp only [keyValue, base64ToUtf8_encode])
  simp only [decodeEvent, publish, key]
  rfl

theorem attributeValue_render (finite : Str → Bool) {j : Json} (h : j.Fits 128) :
    attributeValue finite j.render = j := by
  rw [attributeValue, fromStr_render finite h, Option.getD_some]

theorem attributeValue_nat (finite : Str → Bool) {n : Nat} (h : n ≤ u64Max) :
    attributeValue finite (showNat n) = .nat n := by
  have := attributeValue_render finite (j := .nat n) (by simpa only [Json.Fits] using h)
  simpa only [Json.render] using this

/-! ### Values that fit -/

theorem fitsAll_map {α : Type} {f : α → Json} {d : Nat} {l : List α} (h : ∀ a ∈ l, (f a).Fits d) :
    Json.FitsAll d (l.map f) := by
  induction l with
  | nil => simp [Json.FitsAll]
  | cons a t ih =>
    simp only [List.map_cons, Json.FitsAll]
    exact ⟨h a (by simp), ih (fun a ha => h a (List.mem_cons_of_mem _ ha))⟩

theorem fitsFields_map {α : Type} {f : α → Str × Json} {d : Nat} {l : List α} (h : ∀ a ∈ l, (f a).2.Fits d) :
    Json.FitsFields d (l.map f) := by
  induction l with
  | nil => simp [Json.FitsFields]
  | cons a t ih =>
    simp only [List.map_cons, Json.FitsFields]
    refine ⟨?_, ih (fun a ha => h a (List.mem_cons_of_mem _ ha))⟩
    have := h a (by simp)
    rcases hp : f a with ⟨k, v⟩
    rw [hp] at this
    simpa only [Json.FitsField] using this

theorem fits_confirmation {c : VV.TxConfirmation} (h : c.eventIndex ≤ u64Max) : (jsonConfirmation c).Fits 127 := by
  simp [jsonConfirmation, Json.Fits, Json.FitsFields, Json.FitsField, jsonHex, h]

theorem fits_operator (o : Bytes × Nat) (d : Nat) (hd : 2 ≤ d) : (jsonOperator o).Fits d := by
  simp [jsonOperator, Json.Fits, Json.FitsAll, jsonHex, jsonUint, hd]

theorem fits_workerSet (tx : Str) {i : Nat} (h : i ≤ u64Max) (o : Std.Operators) : (jsonWorkerSet tx i o).Fits 128 := by
  have := fitsAll_map (f := jsonOperator) (d := 125) (l := o.weights) (fun a _ => fits_operator a 125 (by omega))
  simp [jsonWorkerSet, Json.Fits, Json.FitsFields, Json.FitsField, jsonUint, h, this]

theorem fits_key (k : PublicKey) (d : Nat) (hd : 2 ≤ d) : (jsonKey k).Fits d := by
  cases k <;> simp [jsonKey, Json.Fits, Json.FitsFields, Json.FitsField, jsonHex, hd]

/-! ### Scalars -/

theorem asStr_str (s : Str) : asStr (.str s) = some s := rfl

theorem stripPlus_showNat (n : Nat) : stripPlus (showNat n) = showNat n := by
  cases h : showNat n with
  | nil => rfl
  | cons c t =>
    have : c ≠ '+' := by
      rintro rfl
      exact notMem_showNat (by decide) n (h ▸ List.mem_cons_self ..)
    rw [stripPlus, if_neg this]

theorem strip0x_encodeHex {b : Bytes} (hb : IsBytes b) : strip0x (encodeHex b) = encodeHex b := by
  cases b with
  | nil => rfl
  | cons x t =>
    have := (hexDigit_ne (x % 16) (by omega)).2
    rw [encodeHex, strip0x, if_neg (fun h => this h.2)]

theorem asUint_jsonUint {max n : Nat} (h : n ≤ max) : asUint max (jsonUint n) = some n := by
  have hp := stripPlus_showNat n
  have e : Nat.ofDigitChars 10 (showNat n) 0 = n := Nat.ofDigitChars_ten_toDigits
  simp only [asUint, jsonUint, asStr, hp, isDigits_showNat, if_true, e, h]

theorem asUint_over {max n : Nat} (h : ¬ n ≤ max) : asUint max (jsonUint n) = none := by
  have hp := stripPlus_showNat n
  have e : Nat.ofDigitChars 10 (showNat n) 0 = n := Nat.ofDigitChars_ten_toDigits
  simp only [asUint, jsonUint, asStr, hp, isDigits_showNat, if_true, e, h, if_false]

theorem asHex_jsonHex {b : Bytes} (h : IsBytes b) : asHex (jsonHex b) = some b := by
  simp only [asHex, jsonHex, asStr, Option.bind_some, decodeHex_encodeHex h]

theorem fixedHex_encodeHex (n : Nat) {b : Bytes} (h : IsBytes b) :
    fixedHex n (encodeHex b) = if b.length = n then some b else none := by
  have hp := strip0x_encodeHex h
  simp only [fixedHex, hp, decodeHex_encodeHex h]

/-! ### Structures -/

theorem deserMessage_evm (L : Lowering) (finite : Str → Bool) (T : Texts) {c : VV.TxConfirmation}
    (hb : IsBytes c.payloadHash) (hl : c.payloadHash.length = 32) :
    Evm.deserMessage L T (jsonConfirmation c) = Ampd.Evm.readMessage L (reader finite T) c := by
  have f1 : field messageFields "tx_id".toList (jsonConfirmation c) = some (.str c.txId) := rfl
  have f2 : field messageFields "event_index".toList (jsonConfirmation c) = some (.nat c.eventIndex) := rfl
  have f3 : field messageFields "destination_address".toList (jsonConfirmation c) = some (.str c.destinationAddress) := rfl
  have f4 : field messageFields "destination_chain".toList (jsonConfirmation c) = some (.str c.destinationChain) := rfl
  have f5 : field messageFields "source_address".toList (jsonConfirmation c) = some (.str c.sourceAddress) := rfl
  have f6 : field messageFields "payload_hash".toList (jsonConfirmation c) = some (.str (encodeHex c.payloadHash)) := rfl
  simp only [Evm.deserMessage, f1, f2, f3, f4, f5, f6, Option.bind_some, asStr_str, asU64, fixedHex_encodeHex 32 hb, hl,
    if_true, Option.bind_eq_bind, Ampd.Evm.readMessage, reader]
  cases fixedHex 32 c.txId <;> simp only [Option.bind_none, Option.bind_some]
  cases ChainName.parse L c.destinationChain <;> simp only [Option.bind_none, Option.bind_some]
  cases fixedHex 20 c.sourceAddress <;> simp only [Option.bind_none, Option.bind_some]

theorem deserMessage_sui (L : Lowering) (finite : Str → Bool) (T : Texts) {c : VV.TxConfirmation}
    (hb : IsBytes c.payloadHash) (hl : c.payloadHash.length = 32) :
    Sui.deserMessage L T (jsonConfirmation c) = Ampd.Sui.readMessage L (reader finite T) c := by
  have f1 : field messageFields "tx_id".toList (jsonConfirmation c) = some (.str c.txId) := rfl
  have f2 : field messageFields "event_index".toList (jsonConfirmation c) = some (.nat c.eventIndex) := rfl
  have f3 : field messageFields "destination_address".toList (jsonConfirmation c) = some (.str c.destinationAddress) := rfl
  have f4 : field messageFields "destination_chain".toList (jsonConfirmation c) = some (.str c.destinationChain) := rfl
  have f5 : field messageFields "source_address".toList (jsonConfirmation c) = some (.str c.sourceAddress) := rfl
  have f6 : field messageFields "payload_hash".toList (jsonConfirmation c) = some (.str (encodeHex c.payloadHash)) := rfl
  simp only [Sui.deserMessage, f1, f2, f3, f4, f5, f6, Option.bind_some, asStr_str, asU64, fixedHex_encodeHex 32 hb, hl,
    if_true, Option.bind_eq_bind, Ampd.Sui.readMessage, reader]
  cases T.digest c.txId <;> simp only [Option.bind_none, Option.bind_some]
  cases ChainName.parse L c.destinationChain <;> simp only [Option.bind_none, Option.bind_some]
  cases T.suiAddr c.sourceAddress <;> simp only [Option.bind_none, Option.bind_some]

theorem asPair_evm {o : Bytes × Nat} (hb : IsBytes o.1) (hn : o.2 ≤ u256Max) :
    asPair (fun j => (asStr j).bind (fixedHex 20)) (asUint u256Max) (jsonOperator o) = Ampd.readOperator o := by
  simp only [asPair, jsonOperator, asUint_jsonUint hn, jsonHex, asStr, Option.bind_some, fixedHex_encodeHex 20 hb,
    Ampd.readOperator]
  by_cases h : o.1.length = 20 <;> simp only [h, if_true, if_false]

theorem asPair_sui {o : Bytes × Nat} (hb : IsBytes o.1) :
    asPair asHex (asUint u128Max) (jsonOperator o) = if o.2 ≤ u128Max then some o else none := by
  simp only [asPair, jsonOperator, asHex_jsonHex hb]
  by_cases h : o.2 ≤ u128Max
  · simp only [asUint_jsonUint h, h, if_true]
  · simp only [asUint_over h, h, if_false]

theorem deserWorkerSet_evm (finite : Str → Bool) (T : Texts) (tx : Str) (i : Nat) {o : Std.Operators}
    (hb : ∀ p ∈ o.weights, IsBytes p.1 ∧ p.2 ≤ u256Max) (ht : o.threshold ≤ u256Max) :
    Evm.deserWorkerSet (jsonWorkerSet tx i o) = Ampd.Evm.readWorkerSet (reader finite T) tx i o := by
  have f1 : field workerSetFields "tx_id".toList (jsonWorkerSet tx i o) = some (.str tx) := rfl
  have f2 : field workerSetFields "event_index".toList (jsonWorkerSet tx i o) = some (.nat i) := rfl
  have f3 : field workerSetFields "operators".toList (jsonWorkerSet tx i o) =
    some (.obj [("weights_by_addresses".toList, .arr (o.weights.map jsonOperator)),
      ("threshold".toList, jsonUint o.threshold)]) := rfl
  have f4 : field operatorsFields "weights_by_addresses".toList
      (.obj [("weights_by_addresses".toList, .arr (o.weights.map jsonOperator)),
        ("threshold".toList, jsonUint o.threshold)]) = some (.arr (o.weights.map jsonOperator)) := rfl
  have f5 : field operatorsFields "threshold".toList
      (.obj [("weights_by_addresses".toList, .arr (o.weights.map jsonOperator)),
        ("threshold".toList, jsonUint o.threshold)]) = some (jsonUint o.threshold) := rfl
  have hr := readAll_comp (f := asPair (fun j => (asStr j).bind (fixedHex 20)) (asUint u256Max)) (g := jsonOperator)
    (h := Ampd.readOperator) (l := o.weights) (fun p hp => asPair_evm (hb p hp).1 (hb p hp).2)
  simp only [Evm.deserWorkerSet, f1, f2, f3, f4, f5, Option.bind_some, asStr_str, asU64, asVec, Option.bind_eq_bind, hr,
    asUint_jsonUint ht, Ampd.Evm.readWorkerSet, reader]
  cases fixedHex 32 tx <;> simp only [Option.bind_none, Option.bind_some]
  cases readAll Ampd.readOperator o.weights <;> simp only [Option.bind_none, Option.bind_some]

theorem deserWorkerSet_sui (finite : Str → Bool) (T : Texts) (tx : Str) (i : Nat) {o : Std.Operators}
    (hb : ∀ p ∈ o.weights, IsBytes p.1) :
    Sui.deserWorkerSet T (jsonWorkerSet tx i o) = Ampd.Sui.readWorkerSet (reader finite T) tx i o := by
  have f1 : field workerSetFields "tx_id".toList (jsonWorkerSet tx i o) = some (.str tx) := rfl
  have f2 : field workerSetFields "event_index".toList (jsonWorkerSet tx i o) = some (.nat i) := rfl
  have f3 : field workerSetFields "operators".toList (jsonWorkerSet tx i o) =
    some (.obj [("weights_by_addresses".toList, .arr (o.weights.map jsonOperator)),
      ("threshold".toList, jsonUint o.threshold)]) := rfl
  have f4 : field operatorsFields "weights_by_addresses".toList
      (.obj [("weights_by_addresses".toList, .arr (o.weights.map jsonOperator)),
        ("threshold".toList, jsonUint o.threshold)]) = some (.arr (o.weights.map jsonOperator)) := rfl
  have f5 : field operatorsFields "threshold".toList
      (.obj [("weights_by_addresses".toList, .arr (o.weights.map jsonOperator)),
        ("threshold".toList, jsonUint o.threshold)]) = some (jsonUint o.threshold) := rfl
  have hr := readAll_comp (f := asPair asHex (asUint u128Max)) (g := jsonOperator)
    (h := fun p : Bytes × Nat => if p.2 ≤ u128Max then some p else none) (l := o.weights)
    (fun p hp => asPair_sui (hb p hp))
  simp only [Sui.deserWorkerSet, f1, f2, f3, f4, f5, Option.bind_some, asStr_str, asU64, asVec, Option.bind_eq_bind, hr,
    Ampd.Sui.readWorkerSet, reader]
  cases T.digest tx <;> simp only [Option.bind_none, Option.bind_some]
  cases readAll (fun p : Bytes × Nat => if p.2 ≤ u128Max then some p else none) o.weights <;>
    simp only [Option.bind_none, Option.bind_some]
  by_cases ht : o.threshold ≤ u128Max
  · simp only [asUint_jsonUint ht, ht, if_true, Option.bind_some]
  · simp only [asUint_over ht, ht, if_false, Option.bind_none]

/-! ### Whole events -/

/-- texts of addresses are read back, and begin as the addresses of the chain do (`ampd/src/types.rs`: the prefix
`axelar`) -/
structure Texts.Faithful (T : Texts) : Prop where
  parse_text : ∀ a, T.parse (T.text a) = some a
  prefixed : ∀ a, ∃ t, T.text a = "axelar1".toList ++ t

theorem Texts.Faithful.plain {T : Texts} (hT : T.Faithful) (finite : Str → Bool) (a : Addr) :
    fromStr finite (T.text a) = none := by
  obtain ⟨t, ht⟩ := hT.prefixed a
  rw [ht]
  exact fromStr_head finite (c := 'a') (by decide) _

/-- numbers are in the range of their type (`u64`) -/
structure MetaFits (pm : VV.PollMeta) : Prop where
  pollId : pm.pollId ≤ u64Max
  confirmationHeight : pm.confirmationHeight ≤ u64Max
  expiresAt : pm.expiresAt ≤ u64Max

/-- the index is a `u64`, the hash a `[u8; 32]` -/
structure ConfirmationFits (c : VV.TxConfirmation) : Prop where
  eventIndex : c.eventIndex ≤ u64Max
  bytes : IsBytes c.payloadHash
  length : c.payloadHash.length = 32

/-- addresses are bytes, weights and threshold `Uint256` -/
structure OperatorsFit (o : Std.Operators) : Prop where
  bytes : ∀ p ∈ o.weights, IsBytes p.1
  weights : ∀ p ∈ o.weights, p.2 ≤ u256Max
  threshold : o.threshold ≤ u256Max

variable {finite : Str → Bool} {T : Texts}

theorem asAddr_text (hT : T.Faithful) (a : Addr) : asAddr T (attributeValue finite (T.text a)) = some a := by
  simp only [asAddr, attributeValue, hT.plain finite a, Option.getD_none, asStr_str, Option.bind_some, hT.parse_text]

theorem participants_read (hT : T.Faithful) (l : List Addr) :
    asVec (asAddr T) (attributeValue finite (Json.arr (l.map (fun a => .str (T.text a)))).render) = some l := by
  have hf : (Json.arr (l.map (fun a => .str (T.text a)))).Fits 128 := by
    simp only [Json.Fits]
    exact ⟨by omega, fitsAll_map (fun a _ => by simp [Json.Fits])⟩
  rw [attributeValue_render finite hf, asVec]
  have := readAll_map (f := asAddr T) (g := fun a => Json.str (T.text a)) (h := id) (l := l)
    (fun a _ => by simp only [asAddr, asStr_str, Option.bind_some, hT.parse_text, id])
  rw [this, List.map_id]

theorem pollId_read {n : Nat} (h : n ≤ u64Max) :
    asUint u64Max (attributeValue finite (jsonUint n).render) = some n := by
  rw [attributeValue_render finite (by simp [jsonUint, Json.Fits]), asUint_jsonUint h]

/-- the entries of a poll event, each under its own key -/
structure PollEntries (finite : Str → Bool) (T : Texts) (V : Addr) (pm : VV.PollMeta) (name value : Str)
    (a : List (Str × Json)) : Prop where
  contract : lastWith "_contract_address".toList a = some (attributeValue finite (T.text V))
  id : lastWith "poll_id".toList a = some (attributeValue finite (jsonUint pm.pollId).render)
  chain : lastWith "source_chain".toList a = some (attributeValue finite pm.sourceChain)
  gateway : lastWith "source_gateway_address".toList a = some (attributeValue finite pm.sourceGateway)
  height : lastWith "confirmation_height".toList a = some (attributeValue finite (showNat pm.confirmationHeight))
  expires : lastWith "expires_at".toList a = some (attributeValue finite (showNat pm.expiresAt))
  participants : lastWith "participants".toList a =
    some (attributeValue finite (Json.arr (pm.participants.map (fun a => .str (T.text a)))).render)
  content : lastWith name a = some (attributeValue finite value)

theorem evm_deserPoll {α : Type} (L : Lowering) (hT : T.Faithful) {V : Addr} {pm : VV.PollMeta}
    (hm : MetaFits pm) {name value : Str} {a : List (Str × Json)} (he : PollEntries finite T V pm name value a)
    (content : Json → Option α) :
    Evm.deserPoll L T name content a =
      Ampd.Evm.readPoll L (reader finite T) V pm (content (attributeValue finite value)) := by
  simp only [Evm.deserPoll, he.contract, he.id, he.chain, he.gateway, he.height, he.expires, he.participants, he.content,
    Option.bind_some, asAddr_text hT, pollId_read hm.pollId, attributeValue_nat finite hm.confirmationHeight,
    attributeValue_nat finite hm.expiresAt, asU64, participants_read hT, Option.bind_eq_bind, Ampd.Evm.readPoll, reader]
  cases (asStr (attributeValue finite pm.sourceChain)).bind (ChainName.parse L) <;>
    simp only [Option.bind_none, Option.bind_some]
  cases (asStr (attributeValue finite pm.sourceGateway)).bind (fixedHex 20) <;>
    simp only [Option.bind_none, Option.bind_some]
  cases content (attributeValue finite value) <;> simp only [Option.bind_none, Option.bind_some]

theorem sui_deserPoll {α : Type} (hT : T.Faithful) {V : Addr} {pm : VV.PollMeta}
    (hm : MetaFits pm) {name value : Str} {a : List (Str × Json)} (he : PollEntries finite T V pm name value a)
    (content : Json → Option α) :
    Sui.deserPoll T name content a =
      Ampd.Sui.readPoll (reader finite T) V pm (content (attributeValue finite value)) := by
  simp only [Sui.deserPoll, he.contract, he.id, he.gateway, he.expires, he.participants, he.content,
    Option.bind_some, asAddr_text hT, pollId_read hm.pollId,
    attributeValue_nat finite hm.expiresAt, asU64, participants_read hT, Option.bind_eq_bind, Ampd.Sui.readPoll, reader]
  cases (asStr (attributeValue finite pm.sourceGateway)).bind T.suiAddr <;>
    simp only [Option.bind_none, Option.bind_some]
  cases content (attributeValue finite value) <;> simp only [Option.bind_none, Option.bind_some]

/-- the attributes of an event of the verifier at `V` as the daemon has them -/
def verifierMap (finite : Str → Bool) (T : Texts) (V : Addr) (ev : VV.Event) : List (Str × Json) :=
  ("_contract_address".toList, attributeValue finite (T.text V)) ::
    (verifierAttributes T ev).map (fun p => (p.1, attributeValue finite p.2))

theorem messages_entries (V : Addr) (confs : List VV.TxConfirmation) (pm : VV.PollMeta) :
    PollEntries finite T V pm "messages".toList (Json.arr (confs.map jsonConfirmation)).render
      (verifierMap finite T V (.messagesPollStarted confs pm)) :=
  ⟨rfl, rfl, rfl, rfl, rfl, rfl, rfl, rfl⟩

theorem workerSet_entries (V : Addr) (tx : Str) (i : Nat) (o : Std.Operators) (pm : VV.PollMeta) :
    PollEntries finite T V pm "worker_set".toList (jsonWorkerSet tx i o).render
      (verifierMap finite T V (.workerSetPollStarted tx i o pm)) :=
  ⟨rfl, rfl, rfl, rfl, rfl, rfl, rfl, rfl⟩

theorem evm_messages_read (L : Lowering) (hT : T.Faithful) (V : Addr) {confs : List VV.TxConfirmation}
    {pm : VV.PollMeta} (hm : MetaFits pm) (hc : ∀ c ∈ confs, ConfirmationFits c) :
    Evm.deserMessagesPoll L T (verifierMap finite T V (.messagesPollStarted confs pm)) =
      Ampd.Evm.readMessagesPoll L (reader finite T) (V, .messagesPollStarted confs pm) := by
  have hf : (Json.arr (confs.map jsonConfirmation)).Fits 128 := by
    simp only [Json.Fits]
    exact ⟨by omega, fitsAll_map (fun c hcm => fits_confirmation (hc c hcm).eventIndex)⟩
  rw [Evm.deserMessagesPoll, evm_deserPoll L hT hm (messages_entries V confs pm), attributeValue_render finite hf, asVec,
    readAll_comp (h := Ampd.Evm.readMessage L (reader finite T))
      (fun c hcm => deserMessage_evm L finite T (hc c hcm).bytes (hc c hcm).length)]
  rfl

theorem sui_messages_read (L : Lowering) (hT : T.Faithful) (V : Addr) {confs : List VV.TxConfirmation}
    {pm : VV.PollMeta} (hm : MetaFits pm) (hc : ∀ c ∈ confs, ConfirmationFits c) :
    Sui.deserMessagesPoll L T (verifierMap finite T V (.messagesPollStarted confs pm)) =
      Ampd.Sui.readMessagesPoll L (reader finite T) (V, .messagesPollStarted confs pm) := by
  have hf : (Json.arr (confs.map jsonConfirmation)).Fits 128 := by
    simp only [Json.Fits]
    exact ⟨by omega, fitsAll_map (fun c hcm => fits_confirmation (hc c hcm).eventIndex)⟩
  rw [Sui.deserMessagesPoll, sui_deserPoll hT hm (messages_entries V confs pm), attributeValue_render finite hf, asVec,
    readAll_comp (h := Ampd.Sui.readMessage L (reader finite T))
      (fun c hcm => deserMessage_sui L finite T (hc c hcm).bytes (hc c hcm).length)]
  rfl

theorem evm_workerSet_read (L : Lowering) (hT : T.Faithful) (V : Addr) (tx : Str) {i : Nat} {o : Std.Operators}
    {pm : VV.PollMeta} (hm : MetaFits pm) (hi : i ≤ u64Max) (ho : OperatorsFit o) :
    Evm.deserWorkerSetPoll L T (verifierMap finite T V (.workerSetPollStarted tx i o pm)) =
      Ampd.Evm.readWorkerSetPoll L (reader finite T) (V, .workerSetPollStarted tx i o pm) := by
  rw [Evm.deserWorkerSetPoll, evm_deserPoll L hT hm (workerSet_entries V tx i o pm),
    attributeValue_render finite (fits_workerSet tx hi o),
    deserWorkerSet_evm finite T tx i (fun p hp => ⟨ho.bytes p hp, ho.weights p hp⟩) ho.threshold]
  rfl

theorem sui_workerSet_read (hT : T.Faithful) (V : Addr) (tx : Str) {i : Nat} {o : Std.Operators}
    {pm : VV.PollMeta} (hm : MetaFits pm) (hi : i ≤ u64Max) (ho : OperatorsFit o) :
    Sui.deserWorkerSetPoll T (verifierMap finite T V (.workerSetPollStarted tx i o pm)) =
      Ampd.Sui.readWorkerSetPoll (reader finite T) (V, .workerSetPollStarted tx i o pm) := by
  rw [Sui.deserWorkerSetPoll, sui_deserPoll hT hm (workerSet_entries V tx i o pm),
    attributeValue_render finite (fits_workerSet tx hi o), deserWorkerSet_sui finite T tx i ho.bytes]
  rfl

/-! ### Signing -/

/-- the attributes of an event of the multisig contract at `M` as the daemon has them -/
def multisigMap (finite : Str → Bool) (T : Texts) (M : Addr) (ev : Multisig.Event) : List (Str × Json) :=
  ("_contract_address".toList, attributeValue finite (T.text M)) ::
    (multisigAttributes T ev).map (fun p => (p.1, attributeValue finite p.2))

/-- bytes of a length that the type of key has (`key.rs:216-240`) -/
def KeyFits : PublicKey → Prop
  | .ecdsa b => IsBytes b ∧ (b.length = 33 ∨ b.length = 65)
  | .ed25519 b => IsBytes b ∧ b.length = 32

theorem asKey_jsonKey {k : PublicKey} (h : KeyFits k) : Signing.asKey (jsonKey k) = some k := by
  cases k with
  | ecdsa b =>
    have e : Signing.asKey (jsonKey (.ecdsa b)) = match asHex (jsonHex b) with
      | none => none
      | some b => if b.length = 33 ∨ b.length = 65 then some (.ecdsa b) else none := rfl
    rw [e, asHex_jsonHex h.1]
    simp only [h.2, if_true]
  | ed25519 b =>
    have e : Signing.asKey (jsonKey (.ed25519 b)) = match asHex (jsonHex b) with
      | none => none
      | some b => if b.length = 32 then some (.ed25519 b) else none := rfl
    rw [e, asHex_jsonHex h.1]
    simp only [h.2, if_true]

/-- the readers with which the daemon takes signing events apart -/
def signingReader (finite : Str → Bool) (curve : PublicKey → Option Bytes) : Ampd.Signing.Reader where
  attr s := asStr (attributeValue finite s)
  key := curve

theorem signing_read (hT : T.Faithful) (curve : PublicKey → Option Bytes) (M : Addr) {id : Nat} (wid : Str)
    {keys : List (Addr × PublicKey)} (msg : Bytes) (chain : Str) (hid : id ≤ u64Max) (hk : ∀ p ∈ keys, KeyFits p.2) :
    Signing.deserSigning T curve (multisigMap finite T M (.signingStarted id wid keys msg chain)) =
      Ampd.Signing.readSigning (signingReader finite curve) (M, .signingStarted id wid keys msg chain) := by
  have f1 : lastWith "_contract_address".toList (multisigMap finite T M (.signingStarted id wid keys msg chain)) =
    some (attributeValue finite (T.text M)) := rfl
  have f2 : lastWith "session_id".toList (multisigMap finite T M (.signingStarted id wid keys msg chain)) =
    some (attributeValue finite (showNat id)) := rfl
  have f3 : lastWith "pub_keys".toList (multisigMap finite T M (.signingStarted id wid keys msg chain)) =
    some (attributeValue finite (Json.obj (keys.map (fun p => (T.text p.1, jsonKey p.2)))).render) := rfl
  have f4 : lastWith "msg".toList (multisigMap finite T M (.signingStarted id wid keys msg chain)) =
    some (attributeValue finite (encodeHex msg)) := rfl
  have hf : (Json.obj (keys.map (fun p => (T.text p.1, jsonKey p.2)))).Fits 128 := by
    simp only [Json.Fits]
    exact ⟨by omega, fitsFields_map (fun p _ => fits_key p.2 127 (by omega))⟩
  have hr := readAll_comp (f := Signing.deserEntry T curve) (g := fun p : Addr × PublicKey => (T.text p.1, jsonKey p.2))
    (h := Ampd.Signing.readKey (signingReader finite curve)) (l := keys) (fun p hp => by
      simp only [Signing.deserEntry, hT.parse_text, asKey_jsonKey (hk p hp), Option.bind_eq_bind, Option.bind_some,
        Ampd.Signing.readKey, signingReader]
      cases curve p.2 <;> rfl)
  simp only [Signing.deserSigning, f1, f2, f3, f4, Option.bind_some, asAddr_text hT, attributeValue_nat finite hid, asU64,
    attributeValue_render finite hf, Signing.deserKeys, hr, Option.bind_eq_bind, Ampd.Signing.readSigning]
  cases readAll (Ampd.Signing.readKey (signingReader finite curve)) keys <;> simp only [Option.bind_none, Option.bind_some]
  simp only [asHex, signingReader]
  cases (asStr (attributeValue finite (encodeHex msg))).bind decodeHex <;> simp only [Option.bind_none, Option.bind_some]

end Amp.Wire
