import Verif.Wire.StoredSpec
import Verif.Wire.HashProps
import Verif.Prover.SetLemmas
import Verif.Prover.Signed
import Mathlib.Data.List.Sort

/-!
# What is stored is read again as it was
-/

namespace Amp.Wire

open Amp.Router (ChainName Lowering CCId Message)
open Amp.Chain (answer)
open Amp.Ampd (readAll)

variable {T : Texts} {L : Lowering}

/-! ### Maps -/

theorem sorted_ext {α : Type} {m l : OMap Addr α} (hm : OMap.Sorted m) (hl : OMap.Sorted l) (h : ∀ x, x ∈ m ↔ x ∈ l) : m = l := by
  have nd : ∀ {m : OMap Addr α}, OMap.Sorted m → List.Nodup m := fun h =>
    List.Pairwise.imp (fun {a b} hlt e => by rw [e] at hlt; exact absurd hlt (lt_irrefl _)) h
  have hp : List.Perm m l := (List.perm_ext_iff_of_nodup (nd hm) (nd hl)).mpr h
  refine List.Perm.eq_of_pairwise (le := fun a b : Addr × α => a.1 < b.1) ?_ hm hl hp
  intro a b _ _ h1 h2
  exact absurd h1 (lt_asymm h2)

theorem ofList_perm {α : Type} {m : OMap Addr α} {l : List (Addr × α)} (hm : OMap.Sorted m) (hp : List.Perm l m) :
    OMap.ofList l = m := by
  refine sorted_ext (OMap.sorted_ofList l) hm (fun x => ?_)
  rw [Prover.mem_ofList ?_ x, hp.mem_iff]
  rintro ⟨k, v⟩ he ⟨k', v'⟩ he' rfl
  have h1 := OMap.get?_of_mem hm (hp.mem_iff.mp he)
  have h2 := OMap.get?_of_mem hm (hp.mem_iff.mp he')
  rw [h1] at h2
  cases h2
  rfl

/-- entries written in any order are read as the map -/
theorem asMap_perm {α : Type} (hT : T.Faithful) {f : Json → Option α} {g : α → Json} {m : OMap Addr α} {l : List (Addr × α)}
    (hm : OMap.Sorted m) (hp : List.Perm l m) (h : ∀ e ∈ m, f (g e.2) = some e.2) : asMap T f (jsonMap T g l) = some m := by
  have hr : readAll (asEntry T f) (l.map (fun e => (T.text e.1, g e.2))) = some l := by
    have := readAll_map (f := asEntry T f) (g := fun e : Addr × α => (T.text e.1, g e.2)) (h := fun e => e) (l := l)
      (fun e he => by
        have he := h e (hp.mem_iff.mp he)
        unfold asEntry
        rw [hT.parse_text, he])
    rw [this, List.map_id']
  rw [jsonMap, asMap, hr, Option.map_some, ofList_perm hm hp]

theorem asMap_json {α : Type} (hT : T.Faithful) {f : Json → Option α} {g : α → Json} {m : OMap Addr α} (hm : OMap.Sorted m)
    (h : ∀ e ∈ m, f (g e.2) = some e.2) : asMap T f (jsonMap T g m) = some m :=
  asMap_perm hT hm (List.Perm.refl _) h

theorem fits_map {α : Type} {g : α → Json} {m : OMap Addr α} {d : Nat} (h : ∀ e ∈ m, (g e.2).Fits d) (hd : 1 ≤ d) :
    (jsonMap T g m).Fits (d + 1) := by
  rw [jsonMap, Json.Fits]
  exact ⟨by omega, fitsFields_map (fun e he => h e he)⟩

theorem fits_uint (n d : Nat) : (jsonUint n).Fits d := fits_str _ _

/-! ### Voting verifier -/

theorem asTallies_json {t : Std.Tallies} (h : ∀ v, t.get v ≤ u256Max) : asTallies (jsonTallies t) = some t := by
  have e : asTallies (jsonTallies t) = match asUint u256Max (jsonUint (t.get .failedOnChain)),
      asUint u256Max (jsonUint (t.get .notFound)), asUint u256Max (jsonUint (t.get .succeededOnChain)) with
    | some f, some n, some s => some ⟨f, n, s⟩
    | _, _, _ => none := rfl
  rw [e, asUint_jsonUint (h _), asUint_jsonUint (h _), asUint_jsonUint (h _)]
  rfl

theorem asParticipation_json {p : Std.Participation} (h : p.weight ≤ u256Max) :
    asParticipation (jsonParticipation p) = some p := by
  have e : asParticipation (jsonParticipation p) = match asUint u256Max (jsonUint p.weight),
      asOption (asVec asVote) (some (jsonBallot p.vote)) with
    | some w, some v => some ⟨w, v⟩
    | _, _ => none := rfl
  have hv : asOption (asVec asVote) (some (jsonBallot p.vote)) = some p.vote := by
    cases p.vote with
    | none => rfl
    | some vs =>
      show (asVec asVote (.arr (vs.map (fun v => .str (voteName v))))).map some = some (some vs)
      rw [asVotes_json]
      rfl
  rw [e, asUint_jsonUint h, hv]

theorem asPollStatus_json (s : Std.PollStatus) : asPollStatus (.str (pollStatusName s)) = some s := by
  cases s <;> rfl

theorem asPoll_json (hT : T.Faithful) {p : Std.Poll} (h : PollInRange p) : asPoll T (jsonPoll T p) = some p := by
  have e : asPoll T (jsonPoll T p) = match asUint u64Max (jsonUint p.pollId), asUint u256Max (jsonUint p.quorum),
      asNat u64Max (.nat p.expiresAt), asNat u64Max (.nat p.pollSize), asVec asTallies (.arr (p.tallies.map jsonTallies)),
      asPollStatus (.str (pollStatusName p.status)), asMap T asParticipation (jsonMap T jsonParticipation p.participation) with
    | some id, some q, some x, some n, some ts, some st, some ps => some ⟨id, q, x, n, ts, st, ps⟩
    | _, _, _, _, _, _, _ => none := rfl
  rw [e, asUint_jsonUint h.pollId, asUint_jsonUint h.quorum, asNat_nat h.expiresAt, asNat_nat h.pollSize,
    asVec_map (fun t ht => asTallies_json (h.tallies t ht)), asPollStatus_json,
    asMap_json hT h.sorted (fun e he => asParticipation_json (h.weights e he))]

theorem asStoredPoll_json (hT : T.Faithful) {p : VV.StoredPoll} (h : PollInRange p.poll) :
    asStoredPoll T (jsonStoredPoll T p) = some p := by
  obtain ⟨k, p⟩ := p
  have hp := asPoll_json hT h
  cases k with
  | messages =>
    refine oneOf_head ?_
    rw [jsonStoredPoll, onVariant_self, hp]
    rfl
  | workerSet =>
    rw [asStoredPoll, jsonStoredPoll]
    dsimp only
    rw [oneOf_tail (onVariant_other (k' := "confirm_worker_set".toList) (k := "messages".toList) (by decide) _ _)]
    refine oneOf_head ?_
    rw [onVariant_self, hp]
    rfl

theorem asContent_json {α : Type} {f : Json → Option α} {g : α → Json} {c : VV.PollContent α} (hf : f (g c.content) = some c.content)
    (h : c.pollId ≤ u64Max ∧ c.index ≤ maxU32) : asContent f (jsonContent g c) = some c := by
  have e : asContent f (jsonContent g c) = match f (g c.content), asUint u64Max (jsonUint c.pollId),
      asNat maxU32 (.nat c.index) with
    | some x, some id, some i => some ⟨x, id, i⟩
    | _, _, _ => none := rfl
  rw [e, hf, asUint_jsonUint h.1, asNat_nat h.2]

theorem fits_ballot (v : Option (List Std.Vote)) {d : Nat} (hd : 2 ≤ d) : (jsonBallot v).Fits d := by
  cases v with
  | none => simp [jsonBallot, Json.Fits]
  | some vs => exact fits_strs' vs voteName hd

theorem fits_poll {p : Std.Poll} (h : PollInRange p) : (jsonPoll T p).Fits 127 := by
  have h1 : (Json.arr (p.tallies.map jsonTallies)).Fits 126 := by
    refine fits_arr (d := 125) (fun t _ => ?_) (by omega)
    rw [jsonTallies, Json.Fits]
    exact ⟨by omega, fitsFields_map (fun v _ => fits_uint _ _)⟩
  have h2 : (jsonMap T jsonParticipation p.participation).Fits 126 :=
    fits_map (d := 125) (fun e _ => fits_two (d := 124) (fits_uint _ _) (fits_ballot _ (by omega)) (by omega)) (by omega)
  rw [jsonPoll, Json.Fits]
  simp only [Json.FitsFields, Json.FitsField]
  exact ⟨by omega, fits_uint _ _, fits_uint _ _, fits_nat h.expiresAt (Nat.le_refl _) _, fits_nat h.pollSize (Nat.le_refl _) _, h1,
    fits_str _ _, h2, trivial⟩

theorem fits_storedPoll {p : VV.StoredPoll} (h : PollInRange p.poll) : (jsonStoredPoll T p).Fits 128 := by
  obtain ⟨k, p⟩ := p
  cases k <;> exact fits_one (d := 127) (fits_poll h) (by omega)

theorem fits_content {α : Type} {g : α → Json} {c : VV.PollContent α} (hg : (g c.content).Fits 127) (h : c.index ≤ maxU32) :
    (jsonContent g c).Fits 128 := by
  rw [jsonContent, Json.Fits]
  simp only [Json.FitsFields, Json.FitsField]
  exact ⟨by omega, hg, fits_uint _ _, fits_nat h (by decide) _, trivial⟩

/-! ### Router, service registry -/

theorem asEndpoint_json (hT : T.Faithful) {e : Router.ChainEndpoint} (h : e.name.Valid L ∧ e.frozen.toNat ≤ 3) :
    asEndpoint L T (jsonEndpoint T e) = some e := by
  have e' : asEndpoint L T (jsonEndpoint T e) = match asName L (.str e.name),
      one "address".toList (asAddr T) (.obj [("address".toList, .str (T.text e.gateway))]), asFlags (.nat e.frozen.toNat) with
    | some n, some g, some f => some ⟨n, g, f⟩
    | _, _, _ => none := rfl
  have hf : asFlags (.nat e.frozen.toNat) = some e.frozen := by
    rw [asFlags, asNat_nat h.2, Option.map_some, BitVec.ofNat_toNat, BitVec.setWidth_eq]
  rw [e', asName_str h.1, one_some _ (asAddr_str hT _), hf]

theorem fits_endpoint {e : Router.ChainEndpoint} (h : e.frozen.toNat ≤ 3) : (jsonEndpoint T e).Fits 128 := by
  rw [jsonEndpoint, Json.Fits]
  simp only [Json.FitsFields, Json.FitsField]
  exact ⟨by omega, fits_str _ _, fits_one (d := 126) (fits_str _ _) (by omega), fits_nat h (by decide) _, trivial⟩

theorem asStoredService_json (hT : T.Faithful) {u : Unread} (hu : UnreadTyped u) {n : Str} {sv : Registry.Service}
    (h : sv.minBond ≤ u128Max ∧ sv.unbondingDays ≤ u16Max) : asStoredService T (jsonService T u n sv) = some (n, sv) := by
  have e : asStoredService T (jsonService T u n sv) =
      match asStr (.str n), asAddr T (.str (T.text u.serviceContract)), asNat u16Max (.nat u.minWorkers),
      asOption (asNat u16Max) (some (jsonOption u.maxWorkers)), asUint u128Max (jsonUint sv.minBond),
      asStr (.str sv.denom), asNat u16Max (.nat sv.unbondingDays), asStr (.str u.description) with
    | some n, some _, some _, some _, some bond, some denom, some days, some _ => some (n, ⟨bond, denom, days⟩)
    | _, _, _, _, _, _, _, _ => none := rfl
  rw [e, asAddr_str hT, asNat_nat hu.1, asOption_nat hu.2, asUint_jsonUint h.1, asNat_nat h.2]
  rfl

theorem fits_service {u : Unread} (hu : UnreadTyped u) (n : Str) {sv : Registry.Service} (h : sv.unbondingDays ≤ u16Max) :
    (jsonService T u n sv).Fits 128 := by
  rw [jsonService, Json.Fits]
  simp only [Json.FitsFields, Json.FitsField]
  exact ⟨by omega, fits_str _ _, fits_str _ _, fits_nat hu.1 (by decide) _, fits_option hu.2 (by decide) _, fits_uint _ _,
    fits_str _ _, fits_nat h (by decide) _, fits_str _ _, trivial⟩

/-! ### Rewards -/

theorem asEpoch_json {e : Rewards.Epoch} (h : EpochInRange e) : asEpoch (jsonEpoch e) = some e := by
  rw [asEpoch, jsonEpoch, two_some (by decide) (asNat_nat h.1) (asNat_nat h.2)]
  rfl

theorem asStoredParams_json {p : Rewards.Params} {e : Rewards.Epoch} (hp : ParamsInRange p) (he : EpochInRange e) :
    asStoredParams (jsonStoredParams p e) = some (p, e) := by
  rw [asStoredParams, jsonStoredParams, two_some (by decide) (asParams_json hp) (asEpoch_json he)]

theorem asTally_perm (hT : T.Faithful) (c : Addr) {t : Rewards.Tally} (h : TallyInRange t) {l : List (Addr × Nat)}
    (hl : List.Perm l t.participation) : asTally T (jsonTally T c { t with participation := l }) = some (c, t) := by
  have e : asTally T (jsonTally T c { t with participation := l }) = match asAddr T (.str (T.text c)),
      asNat u64Max (.nat t.eventCount), asMap T (asNat u64Max) (jsonMap T .nat l), asEpoch (jsonEpoch t.epoch),
      asParams (jsonParams t.params) with
    | some k, some n, some m, some ep, some p => some (k, ⟨n, m, ep, p⟩)
    | _, _, _, _, _ => none := rfl
  rw [e, asAddr_str hT, asNat_nat h.eventCount, asMap_perm hT h.sorted hl (fun e he => asNat_nat (h.counts e he)),
    asEpoch_json h.epoch, asParams_json h.params]

theorem asRewardEvent_json (hT : T.Faithful) {id : Str} (c : Addr) {n : Nat} (h : id ≠ [] ∧ n ≤ u64Max) :
    asRewardEvent T (jsonRewardEvent T id c n) = some (id, c, n) := by
  have e : asRewardEvent T (jsonRewardEvent T id c n) = match asText (.str id), asAddr T (.str (T.text c)),
      asNat u64Max (.nat n) with
    | some id, some k, some n => some (id, k, n)
    | _, _, _ => none := rfl
  rw [e, asText_str h.1, asAddr_str hT, asNat_nat h.2]

theorem asPool_json (hT : T.Faithful) (c : Addr) {n : Nat} (h : n ≤ u128Max) : asPool T (jsonPool T c n) = some (c, n) := by
  rw [asPool, jsonPool, two_some (by decide) (asAddr_str hT _) (asUint_jsonUint h)]

theorem fits_epoch {e : Rewards.Epoch} (h : EpochInRange e) : (jsonEpoch e).Fits 127 :=
  fits_two (d := 126) (fits_nat h.1 (Nat.le_refl _) _) (fits_nat h.2 (Nat.le_refl _) _) (by omega)

theorem fits_params (p : Rewards.Params) : (jsonParams p).Fits 127 := by
  simp [jsonParams, Json.Fits, Json.FitsFields, Json.FitsField, Json.FitsAll, jsonUint]

theorem fits_tally (c : Addr) {t : Rewards.Tally} (h : TallyInRange t) {l : List (Addr × Nat)} (hl : List.Perm l t.participation) :
    (jsonTally T c { t with participation := l }).Fits 128 := by
  have h1 : (jsonMap T .nat l).Fits 127 :=
    fits_map (d := 126) (fun e he => fits_nat (h.counts e (hl.mem_iff.mp he)) (Nat.le_refl _) _) (by omega)
  rw [jsonTally, Json.Fits]
  simp only [Json.FitsFields, Json.FitsField]
  exact ⟨by omega, fits_str _ _, fits_nat h.eventCount (Nat.le_refl _) _, h1, fits_epoch h.epoch, fits_params _, trivial⟩

theorem fits_rewardEvent (id : Str) (c : Addr) {n : Nat} (h : n ≤ u64Max) : (jsonRewardEvent T id c n).Fits 128 := by
  rw [jsonRewardEvent, Json.Fits]
  simp only [Json.FitsFields, Json.FitsField]
  exact ⟨by omega, fits_str _ _, fits_str _ _, fits_nat h (Nat.le_refl _) _, trivial⟩

/-! ### Multisig -/

theorem asSigningSession_json {s : Multisig.Session}
    (h : s.id ≤ u64Max ∧ IsBytes s.msg ∧ ∀ n, s.state = .completed n → n ≤ u64Max) :
    asSigningSession (jsonSigningSession s) = some s := by
  have e : asSigningSession (jsonSigningSession s) = match asUint u64Max (jsonUint s.id), asStr (.str s.workerSetId),
      asHex (jsonHex s.msg), asSessionState (jsonSessionState s.state) with
    | some id, some w, some m, some st => some ⟨id, w, m, st⟩
    | _, _, _, _ => none := rfl
  rw [e, asUint_jsonUint h.1, asHex_jsonHex h.2.1, asSessionState_json h.2.2]
  rfl

theorem fits_signingSession {s : Multisig.Session} (h : ∀ n, s.state = .completed n → n ≤ u64Max) :
    (jsonSigningSession s).Fits 128 := by
  rw [jsonSigningSession, Json.Fits]
  simp only [Json.FitsFields, Json.FitsField]
  exact ⟨by omega, fits_uint _ _, fits_str _ _, fits_str _ _, fits_sessionState h, trivial⟩

theorem decode_typedSet {ws : Multisig.WorkerSet} (h : FullSetTyped ws) (hs : OMap.Sorted ws.signers) :
    (Prover.toRaw ws).decode = .ok ws := by
  have key : ∃ ws', (Prover.toRaw ws).decode = .ok ws' := by
    unfold Multisig.RawWorkerSet.decode
    rw [if_neg (by
      have := h.threshold
      have := h.createdAt
      simp only [Prover.toRaw]
      omega)]
    split
    · rename_i x hx
      exfalso
      obtain ⟨r, hr⟩ := mapE_ok_of_forall (f := fun e : Addr × Multisig.RawSigner =>
        match Multisig.RawSigner.decode e.2 with
        | .error x => (.error x : Except Multisig.Err (Addr × Multisig.Signer))
        | .ok s => .ok (e.1, s)) (l := (Prover.toRaw ws).signers) (by
        intro y hy
        obtain ⟨⟨a, ad, w, k⟩, he, rfl⟩ := List.mem_map.mp hy
        obtain ⟨h1, h2⟩ := h.signers _ he
        dsimp only at h1 h2
        have hk : Multisig.PublicKey.tryFrom k.keyType k.bytes = .ok k := by
          cases k with
          | ecdsa b =>
            have h3 : ¬ (b.length ≠ 33 ∧ b.length ≠ 65) := by have := h2.2; omega
            exact if_neg h3
          | ed25519 b =>
            have h3 : ¬ b.length ≠ 32 := by have := h2.2; omega
            exact if_neg h3
        simp only [Multisig.RawSigner.decode, hk]
        rw [if_neg (by omega)]
        exact ⟨_, rfl⟩)
      have := hx.symm.trans hr
      simp at this
    · exact ⟨_, rfl⟩
  obtain ⟨ws', hw⟩ := key
  rw [hw, Prover.decode_toRaw hs hw]

theorem asWorkerSet_json (hT : T.Faithful) {ws : Multisig.WorkerSet} (h : FullSetTyped ws) (hs : OMap.Sorted ws.signers) :
    asWorkerSet T (jsonWorkerSetFull T ws) = some ws := by
  rw [asWorkerSet, json_toRaw, asRawSet_json hT (typed_toRaw h), Option.bind_some, decode_typedSet h hs]
  rfl

/-! ### Prover -/

theorem asCommand_json {c : Encoding.Command} (h : IsBytes c.id ∧ IsBytes c.params) : asCommand (jsonCommand c) = some c := by
  have e : asCommand (jsonCommand c) = match asHex (jsonHex c.id), asCommandType (.str (commandName c.ty)),
      asHex (jsonHex c.params) with
    | some id, some ty, some p => some ⟨id, ty, p⟩
    | _, _, _ => none := rfl
  have ht : asCommandType (.str (commandName c.ty)) = some c.ty := by cases c.ty <;> rfl
  rw [e, asHex_jsonHex h.1, ht, asHex_jsonHex h.2]

theorem asBatch_json {b : Prover.Batch} (h : BatchInRange L b) : asBatch L (jsonBatch b) = some b := by
  have e : asBatch L (jsonBatch b) = match asHex (jsonHex b.id), asVec (asCCId L) (.arr (b.messageIds.map jsonCCId)),
      asData (jsonData b.data), asEncoder (.str (encoderName b.encoder)) with
    | some id, some ids, some x, some e => some ⟨id, ids, x, e⟩
    | _, _, _, _ => none := rfl
  have hd : asData (jsonData b.data) = some b.data := by
    rw [asData, jsonData, two_some (by decide) (asUint_jsonUint h.chainId) (asVec_map (fun c hc => asCommand_json (h.commands c hc)))]
    rfl
  have he : asEncoder (.str (encoderName b.encoder)) = some b.encoder := by cases b.encoder <;> rfl
  rw [e, asHex_jsonHex h.id, asVec_map (fun i hi => asCCId_json (h.messageIds i hi)), hd, he]

theorem fits_batch (b : Prover.Batch) : (jsonBatch b).Fits 128 := by
  have h1 : (Json.arr (b.messageIds.map jsonCCId)).Fits 127 := fits_arr (d := 126) (fun i _ => fits_ccId i (by omega)) (by omega)
  have h2 : (jsonData b.data).Fits 127 := by
    refine fits_two (d := 126) (fits_uint _ _) (fits_arr (d := 125) (fun c _ => ?_) (by omega)) (by omega)
    rw [jsonCommand, Json.Fits]
    simp only [Json.FitsFields, Json.FitsField]
    exact ⟨by omega, fits_str _ _, fits_str _ _, fits_str _ _, trivial⟩
  rw [jsonBatch, Json.Fits]
  simp only [Json.FitsFields, Json.FitsField]
  exact ⟨by omega, fits_str _ _, h1, h2, fits_str _ _, trivial⟩

/-! ### All -/

theorem fits_value {G : Texture} (hu : UnreadTyped G.u) {v : Value} (h : v.InRange G.L) : (v.json G).Fits 128 := by
  cases v with
  | counter n => exact fits_uint _ _
  | poll p => exact fits_storedPoll h
  | polledMessage c => exact fits_content (fits_message _ (by omega)) h.2.2
  | polledSet c => exact fits_content (fits_operators _ (by omega)) h.2.2
  | message m => exact fits_message m (by omega)
  | endpoint e => exact fits_endpoint h.2
  | unit => simp [Value.json, Json.Fits]
  | service n sv => exact fits_service hu n h.2
  | worker w =>
    have h1 := fits_bonding w.bonding (d := 127) (by omega)
    show (jsonWorker G.T w).Fits 128
    rw [jsonWorker, Json.Fits]
    simp only [Json.FitsFields, Json.FitsField]
    exact ⟨by omega, fits_str _ _, h1, fits_str _ _, fits_str _ _, trivial⟩
  | params p e => exact fits_two (d := 127) (fits_params p) (fits_epoch h.2) (by omega)
  | tally c t => exact fits_tally c h (List.Perm.refl _)
  | event id c n => exact fits_rewardEvent id c h.2
  | pool c n => exact fits_two (d := 127) (fits_str _ _) (fits_uint _ _) (by omega)
  | epoch n => exact fits_nat (max := u64Max) h (Nat.le_refl _) _
  | session s => exact fits_signingSession h.2.2
  | signature s => cases s <;> exact fits_one (d := 127) (fits_str _ _) (by omega)
  | workerSet ws =>
    show (jsonWorkerSetFull G.T ws).Fits 128
    rw [json_toRaw]
    exact fits_rawSet (typed_toRaw h.1).createdAt (by omega)
  | bytes b => exact fits_str _ _
  | batch b => exact fits_batch b

end Amp.Wire
