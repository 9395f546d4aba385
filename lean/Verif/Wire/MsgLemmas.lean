import Verif.Wire.MsgSpec

/-!
# Lemmas for C95: what is written is read
-/

namespace Amp.Wire

open Amp.Encoding (Bytes)
open Amp.Router (ChainName Lowering CCId Message)
open Amp.Chain (Msg)
open Amp.Ampd (readAll lastWith)

variable {L : Lowering} {T : Texts}

/-! ### Scalars -/

theorem asText_str {s : Str} (h : s ≠ []) : asText (.str s) = some s := by
  cases s with
  | nil => exact absurd rfl h
  | cons c t => rfl

theorem parse_valid {c : ChainName} (h : c.Valid L) : ChainName.parse L c = some c := by
  rw [ChainName.parse, if_neg (by rintro (h1 | h1); exacts [h.2.1 h1, h.1 h1]), h.2.2]

theorem asName_str {c : ChainName} (h : c.Valid L) : asName L (.str c) = some c := parse_valid h

theorem asHash32_hex {b : Bytes} (h : IsBytes b ∧ b.length = 32) : asHash32 (jsonHex b) = some b := by
  rw [asHash32, asHex_jsonHex h.1]
  simp only [h.2, if_true]

theorem asAddr_str (hT : T.Faithful) (a : Addr) : asAddr T (.str (T.text a)) = some a := hT.parse_text a

theorem asNat_nat {max n : Nat} (h : n ≤ max) : asNat max (.nat n) = some n := by
  rw [asNat, if_pos h]

theorem asVec_map {α : Type} {f : Json → Option α} {g : α → Json} {l : List α} (h : ∀ a ∈ l, f (g a) = some a) :
    asVec f (.arr (l.map g)) = some l := by
  have := readAll_map (f := f) (g := g) (h := fun a => a) h
  rw [asVec, this, List.map_id']

theorem asOption_nat {max : Nat} {n : Option Nat} (h : ∀ k, n = some k → k ≤ max) :
    asOption (asNat max) (some (jsonOption n)) = some n := by
  cases n with
  | none => rfl
  | some k =>
    show (asNat max (.nat k)).map some = some (some k)
    rw [asNat_nat (h k rfl)]; rfl

/-! ### Structures -/

theorem one_some {α : Type} (n : Str) {f : Json → Option α} {a : Json} {x : α} (hf : f a = some x) :
    one n f (.obj [(n, a)]) = some x := by
  simp [one, structOf, distinct, lastWith, hf]

theorem two_some {α β : Type} {n m : Str} (hn : n ≠ m) {f : Json → Option α} {g : Json → Option β} {a b : Json} {x : α}
    {y : β} (hf : f a = some x) (hg : g b = some y) : two n m f g (.obj [(n, a), (m, b)]) = some (x, y) := by
  simp [two, structOf, distinct, lastWith, hf, hg, hn, Ne.symm hn]

theorem asPair_some {α β : Type} {f : Json → Option α} {g : Json → Option β} {a b : Json} {x : α} {y : β}
    (hf : f a = some x) (hg : g b = some y) : asPair f g (.arr [a, b]) = some (x, y) := by
  simp [asPair, hf, hg]

theorem onVariant_self {α : Type} (k : Str) (f : Json → Option α) (v : Json) : onVariant k f (.obj [(k, v)]) = f v := by
  simp [onVariant]

theorem onVariant_other {α : Type} {k k' : Str} (h : k' ≠ k) (f : Json → Option α) (v : Json) :
    onVariant k f (.obj [(k', v)]) = none := by
  simp [onVariant, h]

theorem oneOf_head {α : Type} {f : Json → Option α} {t : List (Json → Option α)} {j : Json} {a : α} (h : f j = some a) :
    oneOf (f :: t) j = some a := by
  simp [oneOf, h]

theorem oneOf_tail {α : Type} {f : Json → Option α} {t : List (Json → Option α)} {j : Json} (h : f j = none) :
    oneOf (f :: t) j = oneOf t j := by
  simp [oneOf, h]

theorem asCCId_json {i : CCId} (h : CCIdTyped L i) : asCCId L (jsonCCId i) = some i := by
  rw [asCCId, jsonCCId, two_some (by decide) (asName_str h.1) (asText_str h.2)]
  rfl

theorem asMessage_json {m : Message} (h : MessageTyped L m) : asMessage L (jsonMessage m) = some m := by
  have e : asMessage L (jsonMessage m) = match asCCId L (jsonCCId m.ccId), asText (.str m.sourceAddress),
      asName L (.str m.destinationChain), asText (.str m.destinationAddress), asHash32 (jsonHex m.payloadHash) with
    | some id, some s, some dc, some da, some h => some ⟨id, s, dc, da, h⟩
    | _, _, _, _, _ => none := rfl
  rw [e, asCCId_json h.ccId, asText_str h.sourceAddress, asName_str h.destinationChain, asText_str h.destinationAddress,
    asHash32_hex h.payloadHash]

theorem asMessages_json {ms : List Message} (h : ∀ m ∈ ms, MessageTyped L m) :
    asVec (asMessage L) (jsonMessages ms) = some ms := asVec_map (fun m hm => asMessage_json (h m hm))

theorem asOperators_json {o : Std.Operators} (h : OperatorsFit o) : asOperators (jsonOperators o) = some o := by
  have hw : asVec (asPair asHex (asUint u256Max)) (.arr (o.weights.map jsonOperator)) = some o.weights := by
    refine asVec_map (fun p hp => ?_)
    exact asPair_some (asHex_jsonHex (h.bytes p hp)) (asUint_jsonUint (h.weights p hp))
  rw [asOperators, jsonOperators, two_some (by decide) hw (asUint_jsonUint h.threshold)]
  rfl

theorem asVotes_json (votes : List Std.Vote) : asVec asVote (.arr (votes.map (fun v => .str (voteName v)))) = some votes :=
  asVec_map (fun v _ => by cases v <;> rfl)

theorem asDirection_json (d : Router.Direction) : asDirection (.str (directionName d)) = some d := by
  cases d <;> rfl

theorem asBytes_json {b : Bytes} (h : IsBytes b) : asVec (asNat 255) (.arr (b.map .nat)) = some b :=
  asVec_map (fun n hn => asNat_nat (by have := h n hn; omega))

theorem asNexusMsg_json {n : Nexus.NexusMsg} (h : NexusTyped L n) : asNexusMsg L (jsonNexusMsg n) = some n := by
  have e : asNexusMsg L (jsonNexusMsg n) = match asName L (.str n.sourceChain), asText (.str n.sourceAddress),
      asName L (.str n.destinationChain), asText (.str n.destinationAddress), asBytes32 (.arr (n.payloadHash.map .nat)),
      asSomeBytes (.arr (n.sourceTxId.map .nat)), asNat u64Max (.nat n.sourceTxIndex) with
    | some sc, some sa, some dc, some da, some h, some id, some i => some ⟨sc, sa, dc, da, h, id, i⟩
    | _, _, _, _, _, _, _ => none := rfl
  have h1 : asBytes32 (.arr (n.payloadHash.map .nat)) = some n.payloadHash := by
    rw [asBytes32, asBytes_json h.payloadHash.1]
    simp only [h.payloadHash.2, if_true]
  have h2 : asSomeBytes (.arr (n.sourceTxId.map .nat)) = some n.sourceTxId := by
    rw [asSomeBytes, asBytes_json h.tx.2.1]
    have := h.tx.1
    cases hs : n.sourceTxId with
    | nil => exact absurd hs this
    | cons a t => rfl
  rw [e, asName_str h.sourceChain, asText_str h.sourceAddress, asName_str h.destinationChain,
    asText_str h.destinationAddress, h1, h2, asNat_nat h.tx.2.2]

theorem asRawKey_json (kt : Multisig.KeyType) {b : Bytes} (h : IsBytes b) : asRawKey (jsonRawKey kt b) = some (kt, b) := by
  cases kt with
  | ecdsa =>
    refine oneOf_head ?_
    rw [jsonRawKey, onVariant_self, asHex_jsonHex h]; rfl
  | ed25519 =>
    rw [asRawKey, oneOf_tail (by rw [jsonRawKey, onVariant_other (by decide)])]
    refine oneOf_head ?_
    rw [jsonRawKey, onVariant_self, asHex_jsonHex h]; rfl

theorem asSigner_json (hT : T.Faithful) {s : Multisig.RawSigner} (h : s.weight ≤ u256Max ∧ IsBytes s.key) :
    asSigner T (jsonSigner T s) = some s := by
  have e : asSigner T (jsonSigner T s) = match asAddr T (.str (T.text s.address)), asUint u256Max (jsonUint s.weight),
      asRawKey (jsonRawKey s.keyType s.key) with
    | some ad, some w, some k => some ⟨ad, w, k.1, k.2⟩
    | _, _, _ => none := rfl
  rw [e, asAddr_str hT, asUint_jsonUint h.1, asRawKey_json _ h.2]

theorem asRawSet_json (hT : T.Faithful) {ws : Multisig.RawWorkerSet} (h : SetTyped ws) :
    asRawSet T (jsonRawSet T ws) = some ws := by
  have e : asRawSet T (jsonRawSet T ws) = match
      readAll (asSignerEntry T) (ws.signers.map (fun e => (T.text e.1, jsonSigner T e.2))),
      asUint u256Max (jsonUint ws.threshold), asNat u64Max (.nat ws.createdAt) with
    | some ss, some t, some h => some ⟨ss, t, h⟩
    | _, _, _ => none := rfl
  have hs : readAll (asSignerEntry T) (ws.signers.map (fun e => (T.text e.1, jsonSigner T e.2))) = some ws.signers := by
    have := readAll_map (f := asSignerEntry T) (g := fun e : Addr × Multisig.RawSigner => (T.text e.1, jsonSigner T e.2))
      (h := fun e => e) (l := ws.signers) (fun e he => by
        simp only [asSignerEntry, hT.parse_text, asSigner_json hT (h.signers e he)])
    rw [this, List.map_id']
  rw [e, hs, asUint_jsonUint h.threshold, asNat_nat h.createdAt]

/-- the fields of `RegisterService` -/
def serviceBody (T : Texts) (u : Unread) (n : Str) (sv : Registry.Service) : Json :=
  .obj [("service_name".toList, .str n),
    ("service_contract".toList, .str (T.text u.serviceContract)), ("min_num_workers".toList, .nat u.minWorkers),
    ("max_num_workers".toList, jsonOption u.maxWorkers), ("min_worker_bond".toList, jsonUint sv.minBond),
    ("bond_denom".toList, .str sv.denom), ("unbonding_period_days".toList, .nat sv.unbondingDays),
    ("description".toList, .str u.description)]

theorem asService_json (hT : T.Faithful) {u : Unread} (hu : UnreadTyped u) {n : Str} {sv : Registry.Service}
    (h : sv.minBond ≤ u128Max ∧ sv.unbondingDays ≤ u16Max) : asService T (serviceBody T u n sv) = some (n, sv) := by
  have e : asService T (serviceBody T u n sv) =
      match asStr (.str n), asAddr T (.str (T.text u.serviceContract)), asNat u16Max (.nat u.minWorkers),
      asOption (asNat u16Max) (some (jsonOption u.maxWorkers)), asUint u128Max (jsonUint sv.minBond),
      asStr (.str sv.denom), asNat u16Max (.nat sv.unbondingDays), asStr (.str u.description) with
    | some n, some _, some _, some _, some bond, some denom, some days, some _ => some (n, ⟨bond, denom, days⟩)
    | _, _, _, _, _, _, _, _ => none := rfl
  rw [e, asAddr_str hT, asNat_nat hu.1, asOption_nat hu.2, asUint_jsonUint h.1, asNat_nat h.2]
  rfl

theorem asNonZero_json {max n : Nat} (h0 : 0 < n) (h : n ≤ max) : asNonZero max (jsonUint n) = some n := by
  rw [asNonZero, asUint_jsonUint h]
  exact if_neg (by omega)

theorem asParams_json {p : Rewards.Params} (h : (0 < p.duration ∧ p.duration ≤ u64Max) ∧ p.rewards ≤ u128Max ∧ 0 < p.threshold.num ∧
    p.threshold.num ≤ p.threshold.den ∧ p.threshold.den ≤ u64Max) : asParams (jsonParams p) = some p := by
  have e : asParams (jsonParams p) = match asNonZero u64Max (jsonUint p.duration), asUint u128Max (jsonUint p.rewards),
      asThreshold (.arr [jsonUint p.threshold.num, jsonUint p.threshold.den]) with
    | some d, some r, some t => some ⟨d, r, t⟩
    | _, _, _ => none := rfl
  have ht : Std.Threshold.tryFrom p.threshold.num p.threshold.den = .ok p.threshold := by
    rw [Std.Threshold.tryFrom, if_neg (by omega), if_neg (by omega), if_neg (by omega)]
  have et : asThreshold (.arr [jsonUint p.threshold.num, jsonUint p.threshold.den]) = some p.threshold := by
    rw [asThreshold, asPair_some (asUint_jsonUint (by omega)) (asUint_jsonUint h.2.2.2.2)]
    simp only [ht]
  rw [e, et, asNonZero_json h.1.1 h.1.2, asUint_jsonUint h.2.1]

end Amp.Wire
