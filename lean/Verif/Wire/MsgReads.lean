import Verif.Wire.MsgLemmas

/-!
# Lemmas for C95: each contract reads its own messages, and no others
-/

namespace Amp.Wire

open Amp.Encoding (Bytes)
open Amp.Router (ChainName Lowering CCId Message)
open Amp.Chain (Msg)
open Amp.Ampd (readAll lastWith)

variable {L : Lowering} {T : Texts} {u : Unread}

/-- passes over variants with other names, stops at the one with this name -/
macro "at_variant" : tactic => `(tactic| (
  repeat rw [oneOf_tail (onVariant_other (by decide) _ _)]
  refine oneOf_head ?_
  rw [onVariant_self]))

theorem readVerifier_json {m : VV.Msg} (h : Typed L (.verifier m)) : readVerifier L (jsonVerifier m) = some m := by
  cases m with
  | verifyMessages ms =>
    rw [jsonVerifier, readVerifier]
    at_variant
    rw [one_some _ (asMessages_json h)]; rfl
  | vote id votes =>
    rw [jsonVerifier, readVerifier]
    at_variant
    rw [two_some (by decide) (asUint_jsonUint h) (asVotes_json votes)]; rfl
  | endPoll id =>
    rw [jsonVerifier, readVerifier]
    at_variant
    rw [one_some _ (asUint_jsonUint h)]; rfl
  | verifyWorkerSet id o =>
    rw [jsonVerifier, readVerifier]
    at_variant
    rw [two_some (by decide) (asText_str h.1) (asOperators_json h.2)]; rfl

theorem readGateway_json {m : Gateway.Msg} (h : Typed L (.gateway m)) : readGateway L (jsonGateway m) = some m := by
  cases m with
  | verifyMessages ms =>
    rw [jsonGateway, readGateway]
    at_variant
    rw [asMessages_json h]; rfl
  | routeMessages ms =>
    rw [jsonGateway, readGateway]
    at_variant
    rw [asMessages_json h]; rfl

theorem readRouter_json (hT : T.Faithful) {m : Router.Msg} (h : Typed L (.router m)) :
    readRouter L T (jsonRouter T m) = some m := by
  cases m with
  | registerChain c g =>
    rw [jsonRouter, readRouter]
    at_variant
    rw [two_some (by decide) (asName_str h) (asAddr_str hT g)]; rfl
  | upgradeGateway c g =>
    rw [jsonRouter, readRouter]
    at_variant
    rw [two_some (by decide) (asName_str h) (asAddr_str hT g)]; rfl
  | freezeChain c d =>
    rw [jsonRouter, readRouter]
    at_variant
    rw [two_some (by decide) (asName_str h) (asDirection_json d)]; rfl
  | unfreezeChain c d =>
    rw [jsonRouter, readRouter]
    at_variant
    rw [two_some (by decide) (asName_str h) (asDirection_json d)]; rfl
  | routeMessages ms =>
    rw [jsonRouter, readRouter]
    at_variant
    rw [asMessages_json h]; rfl

theorem readNexus_json {m : Nexus.Msg} (h : Typed L (.nexus m)) : readNexus L (jsonNexus m) = some m := by
  cases m with
  | routeMessages ms =>
    rw [jsonNexus, readNexus]
    at_variant
    rw [asMessages_json h]; rfl
  | routeMessagesFromNexus ns =>
    rw [jsonNexus, readNexus]
    at_variant
    rw [asVec_map (fun n hn => asNexusMsg_json (h n hn))]; rfl

theorem asAddrs_json (hT : T.Faithful) (ws : List Addr) :
    asVec (asAddr T) (.arr (ws.map (fun a => .str (T.text a)))) = some ws := asVec_map (fun a _ => asAddr_str hT a)

theorem readRegistry_json (hT : T.Faithful) (hu : UnreadTyped u) {m : Registry.Msg} (h : Typed L (.registry m)) :
    readRegistry L T (jsonRegistry T u m) = some m := by
  cases m with
  | registerService n sv =>
    rw [jsonRegistry, readRegistry]
    at_variant
    have := asService_json hT hu (n := n) (sv := sv) h
    rw [serviceBody] at this
    rw [this]; rfl
  | authorizeWorkers ws n =>
    rw [jsonRegistry, readRegistry]
    at_variant
    rw [two_some (by decide) (asAddrs_json hT ws) (asStr_str n)]; rfl
  | unauthorizeWorkers ws n =>
    rw [jsonRegistry, readRegistry]
    at_variant
    rw [two_some (by decide) (asAddrs_json hT ws) (asStr_str n)]; rfl
  | declareChainSupport n cs =>
    rw [jsonRegistry, readRegistry]
    at_variant
    rw [two_some (by decide) (asStr_str n) (asVec_map (fun c hc => asName_str (h c hc)))]; rfl
  | bondWorker n =>
    rw [jsonRegistry, readRegistry]
    at_variant
    rw [one_some _ (asStr_str n)]; rfl
  | unbondWorker n =>
    rw [jsonRegistry, readRegistry]
    at_variant
    rw [one_some _ (asStr_str n)]; rfl
  | claimStake n =>
    rw [jsonRegistry, readRegistry]
    at_variant
    rw [one_some _ (asStr_str n)]; rfl

theorem readRewards_json (hT : T.Faithful) {m : Rewards.Msg} (h : Typed L (.rewards m)) :
    readRewards T (jsonRewards T m) = some m := by
  cases m with
  | recordParticipation e w =>
    rw [jsonRewards, readRewards]
    at_variant
    rw [two_some (by decide) (asText_str h) (asAddr_str hT w)]; rfl
  | distributeRewards c n =>
    rw [jsonRewards, readRewards]
    at_variant
    have e : asDistribute T (.obj [("contract_address".toList, .str (T.text c)), ("epoch_count".toList, jsonOption n)]) =
        match asAddr T (.str (T.text c)), asOption (asNat u64Max) (some (jsonOption n)) with
        | some c, some n => some (c, n)
        | _, _ => none := rfl
    rw [e, asAddr_str hT, asOption_nat h]; rfl
  | addRewards c =>
    rw [jsonRewards, readRewards]
    at_variant
    rw [one_some _ (asAddr_str hT c)]; rfl
  | updateParams p =>
    rw [jsonRewards, readRewards]
    at_variant
    rw [one_some _ (asParams_json h)]; rfl

theorem asStart_json (hT0 : T.parse [] = none) {wid : Str} {msg : Bytes} {chain : Str} {ok : Bool}
    (h : IsBytes msg ∧ ChainName.Valid L chain) :
    asStart L T (.obj [("worker_set_id".toList, .str wid), ("msg".toList, jsonHex msg), ("chain_name".toList, .str chain),
      ("sig_verifier".toList, if ok then .null else .str [])]) = some (.startSigningSession wid msg chain ok) := by
  have e : ∀ d : Json, asStart L T (.obj [("worker_set_id".toList, .str wid), ("msg".toList, jsonHex msg),
      ("chain_name".toList, .str chain), ("sig_verifier".toList, d)]) =
      match asStr (.str wid), asHex (jsonHex msg), asName L (.str chain), asOption asStr (some d) with
      | some wid, some m, some ch, some v => some (.startSigningSession wid m ch (match v with
        | none => true
        | some s => (T.parse s).isSome))
      | _, _, _, _ => none := fun _ => rfl
  rw [e, asHex_jsonHex h.1, asName_str h.2]
  cases ok with
  | true => rfl
  | false =>
    show some (Multisig.Msg.startSigningSession wid msg chain (T.parse []).isSome) = _
    rw [hT0]; rfl

theorem readMultisig_json (hT : T.Faithful) (hT0 : T.parse [] = none) {m : Multisig.Msg} (h : Typed L (.multisig m)) :
    readMultisig L T (jsonMultisig T m) = some m := by
  cases m with
  | startSigningSession wid msg chain ok =>
    rw [jsonMultisig, readMultisig]
    at_variant
    exact asStart_json hT0 h
  | submitSignature id sig =>
    rw [jsonMultisig, readMultisig]
    at_variant
    rw [two_some (by decide) (asUint_jsonUint h.1) (asHex_jsonHex h.2)]; rfl
  | registerWorkerSet ws =>
    rw [jsonMultisig, readMultisig]
    at_variant
    rw [one_some _ (asRawSet_json hT h)]; rfl
  | registerPublicKey kt key =>
    rw [jsonMultisig, readMultisig]
    at_variant
    rw [one_some _ (asRawKey_json kt h)]; rfl
  | authorizeCaller a =>
    rw [jsonMultisig, readMultisig]
    at_variant
    rw [one_some _ (asAddr_str hT a)]; rfl
  | unauthorizeCaller a =>
    rw [jsonMultisig, readMultisig]
    at_variant
    rw [one_some _ (asAddr_str hT a)]; rfl

theorem readProver_json {m : Prover.Msg} (h : Typed L (.prover m)) : readProver L (jsonProver m) = some m := by
  cases m with
  | constructProof ids =>
    rw [jsonProver, readProver]
    at_variant
    rw [one_some _ (asVec_map (fun i hi => asCCId_json (h i hi)))]; rfl
  | updateWorkerSet => rfl
  | confirmWorkerSet => rfl

/-! ### Every contract, every message -/

theorem readAs_verifier {m : VV.Msg} (h : Typed L (.verifier m)) (p : Party) :
    readAs L T p (jsonOf T u (.verifier m)) = understood p (.verifier m) := by
  cases p
  case verifier => rw [readAs, jsonOf, readVerifier_json h]; rfl
  all_goals cases m <;> rfl

theorem readAs_route (hT : T.Faithful) {ms : List Message} (h : ∀ m ∈ ms, MessageTyped L m) (p : Party) :
    readAs L T p (jsonOf T u (.route ms)) = understood p (.route ms) := by
  cases p
  case gateway => exact (congrArg (Option.map tagGateway) (readGateway_json (L := L) (m := .routeMessages ms) h))
  case router => exact (congrArg (Option.map tagRouter) (readRouter_json (L := L) hT (m := .routeMessages ms) h))
  case nexus => exact (congrArg (Option.map tagNexus) (readNexus_json (L := L) (m := .routeMessages ms) h))
  all_goals rfl

theorem understood_routed {m m' : Msg} {ms : List Message} (h : routed m = some ms) (h' : routed m' = some ms)
    (p : Party) : understood p m = understood p m' := by
  cases p
  case gateway => simp only [understood, h, h']
  case router => simp only [understood, h, h']
  case nexus => simp only [understood, h, h']
  all_goals
    cases m with
    | gateway x => cases m' <;> first | rfl | cases h'
    | router x => cases m' <;> first | rfl | cases h'
    | nexus x => cases m' <;> first | rfl | cases h'
    | route x => cases m' <;> first | rfl | cases h'
    | _ => cases h

theorem readAs_gateway (hT : T.Faithful) {m : Gateway.Msg} (h : Typed L (.gateway m)) (p : Party) :
    readAs L T p (jsonOf T u (.gateway m)) = understood p (.gateway m) := by
  cases m with
  | routeMessages ms =>
    rw [understood_routed (m := .gateway (.routeMessages ms)) (m' := .route ms) rfl rfl]
    exact readAs_route (u := u) hT h p
  | verifyMessages ms =>
    cases p
    case gateway => rw [readAs, jsonOf, readGateway_json h]; rfl
    all_goals rfl

theorem readAs_router (hT : T.Faithful) {m : Router.Msg} (h : Typed L (.router m)) (p : Party) :
    readAs L T p (jsonOf T u (.router m)) = understood p (.router m) := by
  cases m
  case routeMessages ms =>
    rw [understood_routed (m := .router (.routeMessages ms)) (m' := .route ms) rfl rfl]
    exact readAs_route (u := u) hT h p
  all_goals
    cases p
    case router => rw [readAs, jsonOf, readRouter_json hT h]; rfl
    all_goals rfl

theorem readAs_nexus (hT : T.Faithful) {m : Nexus.Msg} (h : Typed L (.nexus m)) (p : Party) :
    readAs L T p (jsonOf T u (.nexus m)) = understood p (.nexus m) := by
  cases m with
  | routeMessages ms =>
    rw [understood_routed (m := .nexus (.routeMessages ms)) (m' := .route ms) rfl rfl]
    exact readAs_route (u := u) hT h p
  | routeMessagesFromNexus ns =>
    cases p
    case nexus => rw [readAs, jsonOf, readNexus_json h]; rfl
    all_goals rfl

theorem readAs_registry (hT : T.Faithful) (hu : UnreadTyped u) {m : Registry.Msg} (h : Typed L (.registry m)) (p : Party) :
    readAs L T p (jsonOf T u (.registry m)) = understood p (.registry m) := by
  cases p
  case registry => rw [readAs, jsonOf, readRegistry_json hT hu h]; rfl
  all_goals cases m <;> rfl

theorem readAs_rewards (hT : T.Faithful) {m : Rewards.Msg} (h : Typed L (.rewards m)) (p : Party) :
    readAs L T p (jsonOf T u (.rewards m)) = understood p (.rewards m) := by
  cases p
  case rewards => rw [readAs, jsonOf, readRewards_json hT h]; rfl
  all_goals cases m <;> rfl

theorem readAs_multisig (hT : T.Faithful) (hT0 : T.parse [] = none) {m : Multisig.Msg} (h : Typed L (.multisig m))
    (p : Party) : readAs L T p (jsonOf T u (.multisig m)) = understood p (.multisig m) := by
  cases p
  case multisig => rw [readAs, jsonOf, readMultisig_json hT hT0 h]; rfl
  all_goals cases m <;> rfl

theorem readAs_prover {m : Prover.Msg} (h : Typed L (.prover m)) (p : Party) :
    readAs L T p (jsonOf T u (.prover m)) = understood p (.prover m) := by
  cases p
  case prover => rw [readAs, jsonOf, readProver_json h]; rfl
  all_goals cases m <;> rfl

theorem readAs_json (hT : T.Faithful) (hT0 : T.parse [] = none) (hu : UnreadTyped u) {m : Msg} (h : Typed L m) (p : Party) :
    readAs L T p (jsonOf T u m) = understood p m := by
  cases m with
  | verifier m => exact readAs_verifier h p
  | gateway m => exact readAs_gateway hT h p
  | router m => exact readAs_router hT h p
  | nexus m => exact readAs_nexus hT h p
  | registry m => exact readAs_registry hT hu h p
  | rewards m => exact readAs_rewards hT h p
  | multisig m => exact readAs_multisig hT hT0 h p
  | prover m => exact readAs_prover h p
  | route ms => exact readAs_route hT h p

/-! ### Nesting -/

theorem fits_ccId (i : CCId) {d : Nat} (hd : 2 ≤ d) : (jsonCCId i).Fits d := by
  simp [jsonCCId, Json.Fits, Json.FitsFields, Json.FitsField, hd]

theorem fits_message (m : Message) {d : Nat} (hd : 3 ≤ d) : (jsonMessage m).Fits d := by
  have := fits_ccId m.ccId (d := d - 1) (by omega)
  simp only [jsonMessage, Json.Fits, Json.FitsFields, Json.FitsField, jsonHex, this]
  exact ⟨by omega, by trivial⟩

theorem fits_messages (ms : List Message) {d : Nat} (hd : 4 ≤ d) : (jsonMessages ms).Fits d := by
  simp only [jsonMessages, Json.Fits]
  exact ⟨by omega, fitsAll_map (fun m _ => fits_message m (by omega))⟩

theorem fits_operators (o : Std.Operators) {d : Nat} (hd : 4 ≤ d) : (jsonOperators o).Fits d := by
  have := fitsAll_map (f := jsonOperator) (d := d - 2) (l := o.weights) (fun a _ => fits_operator a _ (by omega))
  simp only [jsonOperators, Json.Fits, Json.FitsFields, Json.FitsField, jsonUint]
  exact ⟨by omega, ⟨by omega, this⟩, trivial, trivial⟩

theorem fits_bytes {b : Bytes} (h : IsBytes b) {d : Nat} (hd : 2 ≤ d) : (Json.arr (b.map .nat)).Fits d := by
  simp only [Json.Fits]
  refine ⟨hd, fitsAll_map (fun n hn => ?_)⟩
  have := h n hn
  simp only [Json.Fits, u64Max]
  omega

theorem fits_nexusMsg {n : Nexus.NexusMsg} (h : NexusTyped L n) {d : Nat} (hd : 3 ≤ d) : (jsonNexusMsg n).Fits d := by
  have h1 := fits_bytes h.payloadHash.1 (d := d - 1) (by omega)
  have h2 := fits_bytes h.tx.2.1 (d := d - 1) (by omega)
  have h3 : (Json.nat n.sourceTxIndex).Fits (d - 1) := by simp only [Json.Fits]; exact h.tx.2.2
  have h4 : 2 ≤ d := by omega
  have h5 : ∀ s, (Json.str s).Fits (d - 1) := fun s => by simp [Json.Fits]
  rw [jsonNexusMsg, Json.Fits]
  simp only [Json.FitsFields, Json.FitsField, h1, h2, h3, h4, h5, and_self]

theorem fits_option {n : Option Nat} {max : Nat} (h : ∀ k, n = some k → k ≤ max) (hm : max ≤ u64Max) (d : Nat) :
    (jsonOption n).Fits d := by
  cases n with
  | none => simp [jsonOption, Json.Fits]
  | some k => simp only [jsonOption, Json.Fits]; exact Nat.le_trans (h k rfl) hm

theorem fits_rawKey (kt : Multisig.KeyType) (b : Bytes) {d : Nat} (hd : 2 ≤ d) : (jsonRawKey kt b).Fits d := by
  cases kt <;> simp [jsonRawKey, Json.Fits, Json.FitsFields, Json.FitsField, jsonHex, hd]

theorem fits_signer (s : Multisig.RawSigner) {d : Nat} (hd : 3 ≤ d) : (jsonSigner T s).Fits d := by
  have := fits_rawKey s.keyType s.key (d := d - 1) (by omega)
  have h4 : 2 ≤ d := by omega
  have h5 : ∀ s, (Json.str s).Fits (d - 1) := fun s => by simp [Json.Fits]
  rw [jsonSigner, Json.Fits]
  simp only [Json.FitsFields, Json.FitsField, jsonUint, this, h4, h5, and_self]

theorem fits_rawSet {ws : Multisig.RawWorkerSet} (h : ws.createdAt ≤ u64Max) {d : Nat} (hd : 5 ≤ d) :
    (jsonRawSet T ws).Fits d := by
  have h1 : (Json.obj (ws.signers.map (fun e => (T.text e.1, jsonSigner T e.2)))).Fits (d - 1) := by
    rw [Json.Fits]
    exact ⟨by omega, fitsFields_map (fun e _ => fits_signer e.2 (by omega))⟩
  have h3 : (Json.nat ws.createdAt).Fits (d - 1) := by simp only [Json.Fits]; exact h
  have h4 : 2 ≤ d := by omega
  have h5 : ∀ s, (Json.str s).Fits (d - 1) := fun s => by simp [Json.Fits]
  rw [jsonRawSet, Json.Fits]
  simp only [Json.FitsFields, Json.FitsField, jsonUint, h1, h3, h4, h5, and_self]

theorem fits_strs (l : List Str) {d : Nat} (hd : 2 ≤ d) : (Json.arr (l.map .str)).Fits d := by
  rw [Json.Fits]
  exact ⟨hd, fitsAll_map (fun s _ => by simp [Json.Fits])⟩

theorem fits_strs' {α : Type} (l : List α) (f : α → Str) {d : Nat} (hd : 2 ≤ d) :
    (Json.arr (l.map (fun a => .str (f a)))).Fits d := by
  rw [Json.Fits]
  exact ⟨hd, fitsAll_map (fun s _ => by simp [Json.Fits])⟩

theorem fits_str (s : Str) (d : Nat) : (Json.str s).Fits d := by simp [Json.Fits]

theorem fits_nat {n max : Nat} (h : n ≤ max) (hm : max ≤ u64Max) (d : Nat) : (Json.nat n).Fits d := by
  simp only [Json.Fits]; omega

theorem fits_one {k : Str} {v : Json} {d : Nat} (h : v.Fits d) (hd : 1 ≤ d) : (Json.obj [(k, v)]).Fits (d + 1) := by
  rw [Json.Fits]
  simp only [Json.FitsFields, Json.FitsField]
  exact ⟨by omega, h, trivial⟩

theorem fits_two {k k' : Str} {v v' : Json} {d : Nat} (h : v.Fits d) (h' : v'.Fits d) (hd : 1 ≤ d) :
    (Json.obj [(k, v), (k', v')]).Fits (d + 1) := by
  rw [Json.Fits]
  simp only [Json.FitsFields, Json.FitsField]
  exact ⟨by omega, h, h', trivial⟩

theorem u16Max_le : u16Max ≤ u64Max := by decide

theorem fits_jsonOf (hu : UnreadTyped u) {m : Msg} (h : Typed L m) : (jsonOf T u m).Fits 128 := by
  cases m with
  | verifier m =>
    cases m with
    | verifyMessages ms => exact fits_one (fits_one (fits_messages ms (by omega)) (by omega)) (by omega)
    | vote id votes => exact fits_one (fits_two (fits_str _ _) (fits_strs' votes voteName (by omega)) (by omega)) (by omega)
    | endPoll id => exact fits_one (fits_one (fits_str _ _) (by omega)) (by omega)
    | verifyWorkerSet id o =>
      exact fits_one (fits_two (fits_str _ _) (fits_operators o (by omega)) (by omega)) (by omega)
  | gateway m => cases m with
    | verifyMessages ms => exact fits_one (fits_messages ms (by omega)) (by omega)
    | routeMessages ms => exact fits_one (fits_messages ms (by omega)) (by omega)
  | router m =>
    cases m with
    | registerChain c g => exact fits_one (fits_two (fits_str _ _) (fits_str _ _) (by omega)) (by omega)
    | upgradeGateway c g => exact fits_one (fits_two (fits_str _ _) (fits_str _ _) (by omega)) (by omega)
    | freezeChain c g => exact fits_one (fits_two (fits_str _ _) (fits_str _ _) (by omega)) (by omega)
    | unfreezeChain c g => exact fits_one (fits_two (fits_str _ _) (fits_str _ _) (by omega)) (by omega)
    | routeMessages ms => exact fits_one (fits_messages ms (by omega)) (by omega)
  | nexus m =>
    cases m with
    | routeMessages ms => exact fits_one (fits_messages ms (by omega)) (by omega)
    | routeMessagesFromNexus ns =>
      refine fits_one (v := .arr (ns.map jsonNexusMsg)) ?_ (by omega)
      rw [Json.Fits]
      exact ⟨by omega, fitsAll_map (fun n hn => fits_nexusMsg (h n hn) (by omega))⟩
  | registry m =>
    cases m with
    | registerService n sv =>
      refine fits_one (v := serviceBody T u n sv) ?_ (by omega)
      rw [serviceBody, Json.Fits]
      simp only [Json.FitsFields, Json.FitsField]
      exact ⟨by omega, fits_str _ _, fits_str _ _, fits_nat hu.1 u16Max_le _, fits_option hu.2 u16Max_le _, fits_str _ _,
        fits_str _ _, fits_nat h.2 u16Max_le _, fits_str _ _, trivial⟩
    | authorizeWorkers ws n =>
      exact fits_one (fits_two (fits_strs' ws T.text (by omega)) (fits_str _ _) (by omega)) (by omega)
    | unauthorizeWorkers ws n =>
      exact fits_one (fits_two (fits_strs' ws T.text (by omega)) (fits_str _ _) (by omega)) (by omega)
    | declareChainSupport n cs =>
      exact fits_one (fits_two (fits_str _ _) (fits_strs cs (by omega)) (by omega)) (by omega)
    | bondWorker n => exact fits_one (fits_one (fits_str _ _) (by omega)) (by omega)
    | unbondWorker n => exact fits_one (fits_one (fits_str _ _) (by omega)) (by omega)
    | claimStake n => exact fits_one (fits_one (fits_str _ _) (by omega)) (by omega)
  | rewards m =>
    cases m with
    | recordParticipation e w => exact fits_one (fits_two (fits_str _ _) (fits_str _ _) (by omega)) (by omega)
    | distributeRewards c n =>
      exact fits_one (fits_two (fits_str _ _) (fits_option h (Nat.le_refl _) _) (by omega)) (by omega)
    | addRewards c => exact fits_one (fits_one (fits_str _ _) (by omega)) (by omega)
    | updateParams p =>
      refine fits_one (fits_one (v := jsonParams p) ?_ (by omega)) (by omega)
      simp [jsonParams, Json.Fits, Json.FitsFields, Json.FitsField, Json.FitsAll, jsonUint]
  | multisig m =>
    cases m with
    | startSigningSession wid msg chain ok =>
      rw [jsonOf, jsonMultisig]
      refine fits_one ?_ (by omega)
      rw [Json.Fits]
      simp only [Json.FitsFields, Json.FitsField]
      exact ⟨by omega, fits_str _ _, fits_str _ _, fits_str _ _, by split <;> simp [Json.Fits], trivial⟩
    | submitSignature id sig => exact fits_one (fits_two (fits_str _ _) (fits_str _ _) (by omega)) (by omega)
    | registerWorkerSet ws => exact fits_one (fits_one (fits_rawSet h.createdAt (by omega)) (by omega)) (by omega)
    | registerPublicKey kt key => exact fits_one (fits_one (fits_rawKey kt key (by omega)) (by omega)) (by omega)
    | authorizeCaller a => exact fits_one (fits_one (fits_str _ _) (by omega)) (by omega)
    | unauthorizeCaller a => exact fits_one (fits_one (fits_str _ _) (by omega)) (by omega)
  | prover m =>
    cases m with
    | constructProof ids =>
      refine fits_one (fits_one (v := .arr (ids.map jsonCCId)) ?_ (by omega)) (by omega)
      rw [Json.Fits]
      exact ⟨by omega, fitsAll_map (fun i _ => fits_ccId i (by omega))⟩
    | updateWorkerSet => exact fits_str _ _
    | confirmWorkerSet => exact fits_str _ _
  | route ms => exact fits_one (fits_messages ms (by omega)) (by omega)

/-- a text as a contract reads it -/
theorem readText_json (finite : Str → Bool) (hT : T.Faithful) (hT0 : T.parse [] = none) (hu : UnreadTyped u) {m : Msg}
    (h : Typed L m) (p : Party) : (fromStr finite (jsonOf T u m).render).bind (readAs L T p) = understood p m := by
  rw [fromStr_render finite (fits_jsonOf hu h), Option.bind_some, readAs_json hT hT0 hu h p]

end Amp.Wire
