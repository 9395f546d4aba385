import Verif.Wire.Props

/-!
# Concrete cases for C94
-/

namespace Amp.Wire

open Amp.Encoding (Bytes)
open Amp.Multisig (PublicKey)
open Amp.Ampd (Abci)

/-! Equality of JSON values is decidable; the worlds below need it. -/

mutual
def Json.decEq : (a b : Json) → Decidable (a = b)
  | .null, .null => isTrue rfl
  | .bool a, .bool b => decidable_of_iff (a = b) (by simp)
  | .nat a, .nat b => decidable_of_iff (a = b) (by simp)
  | .number a, .number b => decidable_of_iff (a = b) (by simp)
  | .str a, .str b => decidable_of_iff (a = b) (by simp)
  | .arr a, .arr b => match decEqL a b with
    | isTrue h => isTrue (by rw [h])
    | isFalse h => isFalse (by simpa using h)
  | .obj a, .obj b => match decEqM a b with
    | isTrue h => isTrue (by rw [h])
    | isFalse h => isFalse (by simpa using h)
  | .null, .bool _ | .null, .nat _ | .null, .number _ | .null, .str _ | .null, .arr _ | .null, .obj _
  | .bool _, .null | .bool _, .nat _ | .bool _, .number _ | .bool _, .str _ | .bool _, .arr _ | .bool _, .obj _
  | .nat _, .null | .nat _, .bool _ | .nat _, .number _ | .nat _, .str _ | .nat _, .arr _ | .nat _, .obj _
  | .number _, .null | .number _, .bool _ | .number _, .nat _ | .number _, .str _ | .number _, .arr _
  | .number _, .obj _
  | .str _, .null | .str _, .bool _ | .str _, .nat _ | .str _, .number _ | .str _, .arr _ | .str _, .obj _
  | .arr _, .null | .arr _, .bool _ | .arr _, .nat _ | .arr _, .number _ | .arr _, .str _ | .arr _, .obj _
  | .obj _, .null | .obj _, .bool _ | .obj _, .nat _ | .obj _, .number _ | .obj _, .str _ | .obj _, .arr _ =>
    isFalse (by simp)
def decEqL : (a b : List Json) → Decidable (a = b)
  | [], [] => isTrue rfl
  | [], _ :: _ => isFalse (by simp)
  | _ :: _, [] => isFalse (by simp)
  | a :: as, b :: bs => match Json.decEq a b, decEqL as bs with
    | isTrue h, isTrue h' => isTrue (by rw [h, h'])
    | isFalse h, _ => isFalse (by simp [h])
    | _, isFalse h => isFalse (by simp [h])
def decEqM : (a b : List (Str × Json)) → Decidable (a = b)
  | [], [] => isTrue rfl
  | [], _ :: _ => isFalse (by simp)
  | _ :: _, [] => isFalse (by simp)
  | (k, a) :: as, (l, b) :: bs => match (inferInstance : Decidable (k = l)), Json.decEq a b, decEqM as bs with
    | isTrue h, isTrue h', isTrue h'' => isTrue (by rw [h, h', h''])
    | isFalse h, _, _ => isFalse (by simp [h])
    | _, isFalse h, _ => isFalse (by simp [h])
    | _, _, isFalse h => isFalse (by simp [h])
end

instance : DecidableEq Json := Json.decEq

/-- addresses are numbers behind the prefix -/
def exTexts : Texts where
  text a := "axelar1".toList ++ showNat a
  parse s := if "axelar1".toList.isPrefixOf s then parseU s else none
  digest := decodeHex
  suiAddr s := decodeHex (strip0x s)
where
  /-- the number behind the prefix -/
  parseU (s : Str) : Option Addr := if isDigits (s.drop 7) then some (Nat.ofDigitChars 10 (s.drop 7) 0) else none

theorem ex_faithful : exTexts.Faithful := by
  refine ⟨fun a => ?_, fun a => ⟨showNat a, rfl⟩⟩
  have h1 : "axelar1".toList.isPrefixOf ("axelar1".toList ++ showNat a) = true :=
    List.isPrefixOf_iff_prefix.mpr (List.prefix_append _ _)
  have h2 : ("axelar1".toList ++ showNat a).drop 7 = showNat a := rfl
  show (if "axelar1".toList.isPrefixOf ("axelar1".toList ++ showNat a) then
    exTexts.parseU ("axelar1".toList ++ showNat a) else none) = some a
  rw [h1, if_pos rfl, exTexts.parseU, h2, if_pos (isDigits_showNat a)]
  exact congrArg some Nat.ofDigitChars_ten_toDigits

/-- all numbers are finite -/
def exFinite : Str → Bool := fun _ => true

/-- an EVM transaction, a destination with a quote and a line break in it -/
def exConf : VV.TxConfirmation :=
  ⟨"0x".toList ++ encodeHex (List.replicate 32 0xab), 3, "a \"quoted\"\nname".toList, "avax".toList,
    "0x".toList ++ encodeHex (List.replicate 20 5), List.replicate 32 7⟩

def exMeta : VV.PollMeta :=
  ⟨12, "ethereum".toList, "0x".toList ++ encodeHex (List.replicate 20 0xc0), 1, 110, [1, 2, 30]⟩

theorem ex_fits : EventFits (.messagesPollStarted [exConf, exConf] exMeta) := by
  refine ⟨⟨by decide, by decide, by decide⟩, ?_⟩
  intro c hc
  simp only [List.mem_cons, List.not_mem_nil, or_false, or_self] at hc
  subst hc
  exact ⟨by decide, by unfold IsBytes; decide, by decide⟩

/-- what the contract writes -/
example : (verifierAttributes exTexts (.messagesPollStarted [exConf] exMeta)).map Prod.snd =
    ["[{\"tx_id\":\"0xabababababababababababababababababababababababababababababababab\",\"event_index\":3,\"destination_address\":\"a \\\"quoted\\\"\\nname\",\"destination_chain\":\"avax\",\"source_address\":\"0x0505050505050505050505050505050505050505\",\"payload_hash\":\"0707070707070707070707070707070707070707070707070707070707070707\"}]".toList,
      "\"12\"".toList, "ethereum".toList, "0xc0c0c0c0c0c0c0c0c0c0c0c0c0c0c0c0c0c0c0c0".toList, "1".toList, "110".toList,
      "[\"axelar11\",\"axelar12\",\"axelar130\"]".toList] := by decide +kernel

/-- what the node hands out: `_contract_address` is `axelar190` -/
example : (publishVerifier exTexts 90 (.voted 12 2)).attributes =
    [("X2NvbnRyYWN0X2FkZHJlc3M=".toList, "YXhlbGFyMTkw".toList), ("cG9sbF9pZA==".toList, "IjEyIg==".toList),
      ("dm90ZXI=".toList, "YXhlbGFyMTI=".toList)] := by decide +kernel

/-- what the daemon makes of it -/
def exRead : Option (Ampd.Evm.PollStarted (List Ampd.Evm.Message)) :=
  (decodeEvent exFinite (publishVerifier exTexts 90 (.messagesPollStarted [exConf] exMeta))).bind
    (fun e => Evm.deserMessagesPoll Router.asciiLower exTexts e.attributes)

example : exRead.map (fun p => (p.contract, p.pollId, p.sourceChain, p.sourceGateway)) =
    some (90, 12, "ethereum".toList, List.replicate 20 0xc0) := by decide +kernel

example : exRead.map (fun p => (p.confirmationHeight, p.expiresAt, p.participants)) = some (1, 110, [1, 2, 30]) := by
  decide +kernel

example : exRead.map (fun p => p.content) =
    some [⟨List.replicate 32 0xab, 3, "a \"quoted\"\nname".toList, "avax".toList, List.replicate 20 5,
      List.replicate 32 7⟩] := by decide +kernel

/-- worker sets -/
theorem ex_set_fits : EventFits (.workerSetPollStarted exConf.txId 3 ⟨[(List.replicate 20 1, 10), (List.replicate 20 2, 5)], 11⟩
    exMeta) := by
  refine ⟨⟨by decide, by decide, by decide⟩, by decide, ?_, ?_, by decide⟩
  · unfold IsBytes; decide
  · decide

example : ((decodeEvent exFinite (publishVerifier exTexts 90 (.workerSetPollStarted exConf.txId 3
      ⟨[(List.replicate 20 1, 10), (List.replicate 20 2, 5)], 11⟩ exMeta))).bind
    (fun e => Evm.deserWorkerSetPoll Router.asciiLower exTexts e.attributes)).map (fun p => (p.contract, p.content)) =
    some (90, ⟨List.replicate 32 0xab, 3, [(List.replicate 20 1, 10), (List.replicate 20 2, 5)], 11⟩) := by decide +kernel

/-- an event of a history of the verifier is in range, so that the theorems apply to it -/
example : ∃ c ev, TypedCall c ∧ ((VV.history VV.exH VV.exCfg [c]).map (fun e => e.2.event)) = [some ev] ∧
    EventFits ev := by
  have ht : TypedCall ⟨100, 77, some VV.exWorkers, .verifyMessages [⟨⟨"eth".toList, "0xab:3".toList⟩, "0xs".toList,
      "avax".toList, "0xd".toList, List.replicate 32 7⟩]⟩ := by
    refine ⟨fun ms h m hm => ?_, fun mid o h => by simp at h⟩
    simp only [VV.Msg.verifyMessages.injEq] at h
    subst h
    simp only [List.mem_singleton] at hm
    subst hm
    exact ⟨by unfold IsBytes; decide, by decide⟩
  refine ⟨_, .messagesPollStarted [⟨"0xab".toList, 3, "0xd".toList, "avax".toList, "0xs".toList, List.replicate 32 7⟩]
    ⟨1, "eth".toList, "gw".toList, 1, 110, [1, 2, 3]⟩, ht, by decide, ?_⟩
  exact C94_verifier_fits VV.exH VV.exCfg (by decide) [_] (by simpa using ht) _ (List.mem_of_getElem? (i := 0) rfl) _ rfl

/-! ### Signing -/

def exSession (msg : Bytes) : Multisig.Event :=
  .signingStarted 4 "w".toList [(1, .ecdsa (List.replicate 33 2)), (2, .ed25519 (List.replicate 32 3))] msg "eth".toList

theorem ex_signing_fits {msg : Bytes} (h : IsBytes msg) : SigningFits (exSession msg) := by
  refine ⟨by decide, ?_, h⟩
  intro p hp
  simp only [List.mem_cons, List.not_mem_nil, or_false] at hp
  rcases hp with rfl | rfl
  · exact ⟨by unfold IsBytes; decide, by decide⟩
  · exact ⟨by unfold IsBytes; decide, by decide⟩

/-- all keys are points -/
def exCurve : PublicKey → Option Bytes
  | .ecdsa b => some b
  | .ed25519 b => some b

/-- the daemon reads sessions, unless the digest happens to be a number -/
example : ((decodeEvent exFinite (publishMultisig exTexts 18 (exSession (List.replicate 32 0xa1)))).bind
    (fun e => Signing.deserSigning exTexts exCurve e.attributes)).map (fun s => (s.contract, s.sessionId, s.pubKeys, s.msg)) =
    some (18, 4, [(1, List.replicate 33 2), (2, List.replicate 32 3)], List.replicate 32 0xa1) := by decide +kernel

example : ((decodeEvent exFinite (publishMultisig exTexts 18 (exSession (List.replicate 32 0x11)))).bind
    (fun e => Signing.deserSigning exTexts exCurve e.attributes)).isNone = true := by decide +kernel

/-- numbers: digits only, and digits with an exponent -/
theorem ex_number : NumberText (encodeHex (List.replicate 32 0x11)) :=
  Or.inl ⟨by decide, by decide, Or.inr (by decide)⟩

example : NumberText (encodeHex (List.replicate 31 0x11 ++ [0xe5])) :=
  Or.inr ⟨encodeHex (List.replicate 31 0x11), ['5'], by decide, ⟨by decide, by decide, Or.inr (by decide)⟩, by decide,
    by decide⟩

/-- a digest with a leading zero is no number -/
example : ¬ NumberText (encodeHex (1 :: List.replicate 31 0x11)) := by
  rintro (⟨_, _, h | h⟩ | ⟨d, x, h, ⟨h1, _, h2⟩, _, h3⟩)
  · exact absurd h (by decide)
  · exact absurd h (by decide)
  · have : 'e' ∈ encodeHex (1 :: List.replicate 31 0x11) := by rw [h]; simp
    exact absurd this (by decide)

/-- block 6 contains the session with the unreadable digest -/
def exWorld : Ampd.World RawEvent (Abci (List (Str × Json))) where
  chain h := { beginBlock := none
               txs := some [[publishMultisig exTexts 18 (if h = 6 then exSession (List.replicate 32 0x11) else .signingCompleted 3 4)]]
               endBlock := none }
  decode := decodeEvent exFinite

theorem ex_sane : Ampd.Sane exWorld 1 [] Ampd.stallRuns := by
  refine ⟨⟨?_, ?_, trivial⟩, ⟨?_, ?_, trivial⟩, ?_⟩ <;> decide +kernel

example : 6 ∉ Ampd.durableAcks exWorld 1 [] Ampd.stallRuns ∧
    ∀ first ∈ (Ampd.durableAcks exWorld 1 [] Ampd.stallRuns).head?, first < 6 →
      ∀ n ∈ (Ampd.fileAfterAll exWorld Ampd.stallRuns).get? 1, n < 6 := by
  refine C94_digest_stalls exWorld rfl ex_faithful exCurve ⟨1, 18⟩ 1 Ampd.stallRuns ex_sane ?_ 6 18 _ _ _
    (List.replicate 32 0x11) _ (ex_signing_fits (by unfold IsBytes; decide)) (by decide) ?_ ex_number rfl
  · refine ⟨Ampd.faithful_of_zip (fun e => Ampd.Signing.handle (Signing.deserSigning exTexts exCurve) ⟨1, 18⟩
        Ampd.Signing.exEnv e) (fun e => ⟨Ampd.Signing.exEnv, rfl⟩) ?_,
      Ampd.faithful_of_zip (fun e => Ampd.Signing.handle (Signing.deserSigning exTexts exCurve) ⟨1, 18⟩
        Ampd.Signing.exEnv e) (fun e => ⟨Ampd.Signing.exEnv, rfl⟩) ?_, trivial⟩
    · decide +kernel
    · decide +kernel
  · exact List.mem_singleton.mpr rfl

example : Ampd.durableAcks exWorld 1 [] Ampd.stallRuns = [5] := by decide +kernel

/-! ### Names of chains -/

/-- a poll of a verifier for a chain called `1` -/
def exOne : VV.PollMeta := ⟨12, "1".toList, "0x".toList ++ encodeHex (List.replicate 20 0xc0), 1, 110, [1, 2, 30]⟩

theorem ex_one_fits : EventFits (.messagesPollStarted [] exOne) :=
  ⟨⟨by decide, by decide, by decide⟩, fun c hc => absurd hc (by simp)⟩

/-- block 6 contains that poll -/
def exNameWorld : Ampd.World RawEvent (Abci (List (Str × Json))) where
  chain h := { beginBlock := none
               txs := some [[publishVerifier exTexts 90 (if h = 6 then .messagesPollStarted [] exOne else .voted 3 4)]]
               endBlock := none }
  decode := decodeEvent exFinite

theorem ex_name_sane : Ampd.Sane exNameWorld 1 [] Ampd.stallRuns := by
  refine ⟨⟨?_, ?_, trivial⟩, ⟨?_, ?_, trivial⟩, ?_⟩ <;> decide +kernel

example : 6 ∉ Ampd.durableAcks exNameWorld 1 [] Ampd.stallRuns ∧
    ∀ first ∈ (Ampd.durableAcks exNameWorld 1 [] Ampd.stallRuns).head?, first < 6 →
      ∀ n ∈ (Ampd.fileAfterAll exNameWorld Ampd.stallRuns).get? 1, n < 6 := by
  refine C94_chain_name_stalls exNameWorld rfl ex_faithful Router.asciiLower
    (some : Ampd.Evm.GatewayEvent → Option Ampd.Evm.GatewayEvent) Ampd.Evm.exHandler 1 Ampd.stallRuns ex_name_sane ?_ 6 90
    [] exOne ex_one_fits ?_ (.nat 1) (by decide +kernel) (by simp)
  · refine ⟨Ampd.faithful_of_zip (fun e => Ampd.Evm.handleMessages Router.asciiLower some
        (Evm.deserMessagesPoll Router.asciiLower exTexts) Ampd.Evm.exHandler Ampd.Evm.exEnv e)
          (fun e => ⟨Ampd.Evm.exEnv, rfl⟩) ?_,
      Ampd.faithful_of_zip (fun e => Ampd.Evm.handleMessages Router.asciiLower some
        (Evm.deserMessagesPoll Router.asciiLower exTexts) Ampd.Evm.exHandler Ampd.Evm.exEnv e)
          (fun e => ⟨Ampd.Evm.exEnv, rfl⟩) ?_, trivial⟩
    · decide +kernel
    · decide +kernel
  · exact List.mem_singleton.mpr rfl

/-- a quoted name is read without its quotes: the daemon takes the chain `"ethereum"` for `ethereum` -/
example : ReadsAs exFinite "\"ethereum\"".toList "ethereum".toList := Or.inr (by decide +kernel)

/-- plain names -/
example : ∀ t, ReadsAs exFinite "ethereum".toList t ↔ t = "ethereum".toList :=
  C94_plain _ (Or.inl ⟨'e', "thereum".toList, rfl, by decide, by decide, by decide, by decide⟩)

end Amp.Wire
