import Verif.Wire.MsgReads
import Verif.Wire.Queries

/-!
# Lemmas for C96: what is asked and answered is read
-/

namespace Amp.Wire

open Amp.Encoding (Bytes)
open Amp.Router (ChainName Lowering CCId Message)
open Amp.Chain (Params Block World Store Pending Act answer)
open Amp.Ampd (readAll lastWith)

variable {L : Lowering} {T : Texts}

/-! ### What is of its type -/

/-- `BondingState` -/
def BondingTyped : Registry.BondingState → Prop
  | .bonded n => n ≤ u128Max
  | .requestedUnbonding n => n ≤ u128Max
  | .unbonding n t => n ≤ u128Max ∧ t ≤ u64Max
  | .unbonded => True

/-- `Multisig` -/
structure SessionTyped (m : Multisig.Multisig) : Prop where
  state : ∀ h, m.state = .completed h → h ≤ u64Max
  quorum : m.quorum ≤ u256Max
  weights : ∀ p ∈ m.signers, p.1.weight ≤ u256Max
  keys : ∀ p ∈ m.signers, KeyFits p.1.pubKey
  signatures : ∀ p ∈ m.signers, ∀ s, p.2 = some s → IsBytes s.bytes

/-! ### Answers -/

theorem asStatuses_json {l : List (CCId × Bool)} (h : ∀ p ∈ l, CCIdTyped L p.1) :
    asStatuses L (jsonStatuses l) = some l := by
  refine asVec_map (g := fun p : CCId × Bool => .arr [jsonCCId p.1, .bool p.2]) (fun p hp => ?_)
  exact asPair_some (asCCId_json (h p hp)) rfl

theorem looseOne_some {α : Type} (n : Str) {f : Json → Option α} {a : Json} {x : α} (hf : f a = some x) :
    looseOne n f (.obj [(n, a)]) = some x := by
  simp [looseOne, looseOf, structOf, distinct, lastWith, hf]

theorem looseTwo_some {α β : Type} {n m : Str} (hn : n ≠ m) {f : Json → Option α} {g : Json → Option β} {a b : Json} {x : α}
    {y : β} (hf : f a = some x) (hg : g b = some y) : looseTwo n m f g (.obj [(n, a), (m, b)]) = some (x, y) := by
  simp [looseTwo, looseOf, structOf, distinct, lastWith, hf, hg, hn, Ne.symm hn]

theorem asBonding_json {b : Registry.BondingState} (h : BondingTyped b) : asBonding (jsonBonding b) = some b := by
  cases b with
  | bonded n =>
    refine oneOf_head ?_
    rw [jsonBonding, onVariant_self, looseOne_some _ (asUint_jsonUint h)]; rfl
  | requestedUnbonding n =>
    rw [asBonding, oneOf_tail (by rw [jsonBonding, onVariant_other (by decide)])]
    refine oneOf_head ?_
    rw [jsonBonding, onVariant_self, looseOne_some _ (asUint_jsonUint h)]; rfl
  | unbonding n t =>
    rw [asBonding, oneOf_tail (by rw [jsonBonding, onVariant_other (by decide)]),
      oneOf_tail (by rw [jsonBonding, onVariant_other (by decide)])]
    refine oneOf_head ?_
    rw [jsonBonding, onVariant_self, looseTwo_some (by decide) (asUint_jsonUint h.1) (asUint_jsonUint h.2)]; rfl
  | unbonded => rfl

theorem asAuth_json (a : Registry.AuthState) : asAuth (.str (authName a)) = some a := by cases a <;> rfl

theorem asWorker_json (hT : T.Faithful) {w : Registry.Worker} (h : BondingTyped w.bonding) :
    asWorker T (jsonWorker T w) = some w := by
  have e : asWorker T (jsonWorker T w) = match asAddr T (.str (T.text w.address)), asBonding (jsonBonding w.bonding),
      asAuth (.str (authName w.auth)), asStr (.str w.service) with
    | some ad, some bo, some au, some n => some ⟨ad, bo, au, n⟩
    | _, _, _, _ => none := rfl
  rw [e, asAddr_str hT, asBonding_json h, asAuth_json]
  rfl

theorem asWorkers_json (hT : T.Faithful) {ws : List Registry.Worker} (h : ∀ w ∈ ws, BondingTyped w.bonding) :
    asVec (asWorker T) (.arr (ws.map (jsonWorker T))) = some ws := asVec_map (fun w hw => asWorker_json hT (h w hw))

theorem asPublicKey_json {k : Multisig.PublicKey} (h : KeyFits k) : asPublicKey (jsonPublicKey k) = some k := by
  cases k with
  | ecdsa b =>
    rw [jsonPublicKey, asPublicKey, asRawKey_json _ h.1]
    have : ¬ (b.length ≠ 33 ∧ b.length ≠ 65) := by have := h.2; omega
    simp only [Multisig.PublicKey.tryFrom, this, if_false, answer]
  | ed25519 b =>
    rw [jsonPublicKey, asPublicKey, asRawKey_json _ h.1]
    simp only [Multisig.PublicKey.tryFrom, h.2, ne_eq, not_true, if_false, answer]

theorem asKeyType_json (kt : Multisig.KeyType) : asKeyType (.str (keyTypeName kt)) = some kt := by cases kt <;> rfl

theorem asSignature_json {s : Multisig.Signature} (h : IsBytes s.bytes) : asSignature (jsonSignature s) = some s := by
  cases s with
  | ecdsa b =>
    refine oneOf_head ?_
    rw [jsonSignature, onVariant_self, asHex_jsonHex (b := b) h]; rfl
  | ecdsaRecoverable b =>
    rw [asSignature, oneOf_tail (by rw [jsonSignature, onVariant_other (by decide)])]
    refine oneOf_head ?_
    rw [jsonSignature, onVariant_self, asHex_jsonHex (b := b) h]; rfl
  | ed25519 b =>
    rw [asSignature, oneOf_tail (by rw [jsonSignature, onVariant_other (by decide)]),
      oneOf_tail (by rw [jsonSignature, onVariant_other (by decide)])]
    refine oneOf_head ?_
    rw [jsonSignature, onVariant_self, asHex_jsonHex (b := b) h]; rfl

theorem asMaybe_json {s : Option Multisig.Signature} (h : ∀ x, s = some x → IsBytes x.bytes) :
    asMaybe (jsonMaybe s) = some s := by
  cases s with
  | none => rfl
  | some x =>
    have : asMaybe (jsonSignature x) = (asSignature (jsonSignature x)).map some := by cases x <;> rfl
    rw [jsonMaybe, this, asSignature_json (h x rfl)]; rfl

theorem asSessionState_json {s : Multisig.SessionState} (h : ∀ n, s = .completed n → n ≤ u64Max) :
    asSessionState (jsonSessionState s) = some s := by
  cases s with
  | pending => rfl
  | completed n =>
    rw [asSessionState, oneOf_tail rfl]
    refine oneOf_head ?_
    rw [jsonSessionState, onVariant_self, one_some _ (asNat_nat (h n rfl))]; rfl

theorem asFullSigner_json (hT : T.Faithful) {s : Multisig.Signer} (h : s.weight ≤ u256Max) (hk : KeyFits s.pubKey) :
    asFullSigner T (jsonFullSigner T s) = some s := by
  have e : asFullSigner T (jsonFullSigner T s) = match asAddr T (.str (T.text s.address)), asUint u256Max (jsonUint s.weight),
      asPublicKey (jsonPublicKey s.pubKey) with
    | some ad, some w, some k => some ⟨ad, w, k⟩
    | _, _, _ => none := rfl
  rw [e, asAddr_str hT, asUint_jsonUint h, asPublicKey_json hk]

theorem asSession_json (hT : T.Faithful) {m : Multisig.Multisig} (h : SessionTyped m) :
    asSession T (jsonSession T m) = some m := by
  have e : asSession T (jsonSession T m) = match asSessionState (jsonSessionState m.state), asUint u256Max (jsonUint m.quorum),
      asVec (asPair (asFullSigner T) asMaybe)
        (.arr (m.signers.map (fun p => .arr [jsonFullSigner T p.1, jsonMaybe p.2]))) with
    | some st, some q, some ss => some ⟨st, q, ss⟩
    | _, _, _ => none := rfl
  have hs : asVec (asPair (asFullSigner T) asMaybe)
      (.arr (m.signers.map (fun p => .arr [jsonFullSigner T p.1, jsonMaybe p.2]))) = some m.signers :=
    asVec_map (fun p hp => asPair_some (asFullSigner_json hT (h.weights p hp) (h.keys p hp))
      (asMaybe_json (h.signatures p hp)))
  rw [e, asSessionState_json h.state, asUint_jsonUint h.quorum, hs]

/-! ### Nesting -/

theorem fits_arr {α : Type} {f : α → Json} {l : List α} {d : Nat} (h : ∀ a ∈ l, (f a).Fits d) (hd : 1 ≤ d) :
    (Json.arr (l.map f)).Fits (d + 1) := by
  rw [Json.Fits]
  exact ⟨by omega, fitsAll_map h⟩

theorem fits_pair {a b : Json} {d : Nat} (h : a.Fits d) (h' : b.Fits d) (hd : 1 ≤ d) : (Json.arr [a, b]).Fits (d + 1) := by
  rw [Json.Fits]
  simp only [Json.FitsAll]
  exact ⟨by omega, h, h', trivial⟩

theorem fits_statuses (l : List (CCId × Bool)) : (jsonStatuses l).Fits 128 :=
  fits_arr (fun p _ => fits_pair (fits_ccId p.1 (by omega)) (by simp [Json.Fits]) (by omega)) (by omega)

theorem fits_bonding (b : Registry.BondingState) {d : Nat} (hd : 3 ≤ d) : (jsonBonding b).Fits d := by
  obtain ⟨d, rfl⟩ : ∃ e, d = e + 3 := ⟨d - 3, by omega⟩
  cases b with
  | bonded n => exact fits_one (d := d + 2) (fits_one (d := d + 1) (fits_str _ _) (by omega)) (by omega)
  | requestedUnbonding n => exact fits_one (d := d + 2) (fits_one (d := d + 1) (fits_str _ _) (by omega)) (by omega)
  | unbonding n t =>
    exact fits_one (d := d + 2) (fits_two (d := d + 1) (fits_str _ _) (fits_str _ _) (by omega)) (by omega)
  | unbonded => exact fits_str _ _

theorem fits_worker (w : Registry.Worker) : (jsonWorker T w).Fits 127 := by
  have h1 := fits_bonding w.bonding (d := 126) (by omega)
  rw [jsonWorker, Json.Fits]
  simp only [Json.FitsFields, Json.FitsField]
  exact ⟨by omega, fits_str _ _, h1, fits_str _ _, fits_str _ _, trivial⟩

theorem fits_workers (ws : List Registry.Worker) : (Json.arr (ws.map (jsonWorker T))).Fits 128 :=
  fits_arr (fun w _ => fits_worker w) (by omega)

theorem fits_publicKey (k : Multisig.PublicKey) {d : Nat} (hd : 2 ≤ d) : (jsonPublicKey k).Fits d := by
  cases k with
  | ecdsa b => exact fits_rawKey .ecdsa b hd
  | ed25519 b => exact fits_rawKey .ed25519 b hd

theorem fits_signature (s : Multisig.Signature) : (jsonSignature s).Fits 125 := by
  cases s <;> exact fits_one (d := 124) (fits_str _ _) (by omega)

theorem fits_maybe (s : Option Multisig.Signature) : (jsonMaybe s).Fits 125 := by
  cases s with
  | none => simp [jsonMaybe, Json.Fits]
  | some s => exact fits_signature s

theorem fits_fullSigner (s : Multisig.Signer) : (jsonFullSigner T s).Fits 125 := by
  have h1 := fits_publicKey s.pubKey (d := 124) (by omega)
  rw [jsonFullSigner, Json.Fits]
  simp only [Json.FitsFields, Json.FitsField]
  exact ⟨by omega, fits_str _ _, fits_str _ _, h1, trivial⟩

theorem fits_sessionState {s : Multisig.SessionState} (h : ∀ n, s = .completed n → n ≤ u64Max) :
    (jsonSessionState s).Fits 127 := by
  cases s with
  | pending => exact fits_str _ _
  | completed n => exact fits_one (d := 126) (fits_one (d := 125) (fits_nat (h n rfl) (Nat.le_refl _) _) (by omega)) (by omega)

theorem fits_session {m : Multisig.Multisig} (h : SessionTyped m) : (jsonSession T m).Fits 128 := by
  have h1 := fits_sessionState h.state
  have h2 : (Json.arr (m.signers.map (fun p => .arr [jsonFullSigner T p.1, jsonMaybe p.2]))).Fits 127 :=
    fits_arr (fun p _ => fits_pair (fits_fullSigner p.1) (fits_maybe p.2) (by omega)) (by omega)
  rw [jsonSession, Json.Fits]
  simp only [Json.FitsFields, Json.FitsField]
  exact ⟨by omega, h1, fits_str _ _, h2, trivial⟩


/-! ### Questions -/

theorem fits_isVerified (ms : List Message) : (askIsVerified ms).Fits 128 :=
  fits_one (d := 127) (fits_one (d := 126) (fits_messages ms (by omega)) (by omega)) (by omega)

theorem fits_isSetVerified (o : Std.Operators) : (askIsSetVerified o).Fits 128 :=
  fits_one (d := 127) (fits_one (d := 126) (fits_operators o (by omega)) (by omega)) (by omega)

theorem fits_getMessages (ids : List CCId) : (askGetMessages ids).Fits 128 :=
  fits_one (d := 127) (fits_one (d := 126) (fits_arr (d := 125) (fun i _ => fits_ccId i (by omega)) (by omega)) (by omega))
    (by omega)

theorem fits_activeWorkers (sv : Str) (c : ChainName) : (askActiveWorkers sv c).Fits 128 :=
  fits_one (d := 127) (fits_two (d := 126) (fits_str _ _) (fits_str _ _) (by omega)) (by omega)

theorem fits_askKey (a : Addr) (kt : Multisig.KeyType) : (askPublicKey T a kt).Fits 128 :=
  fits_one (d := 127) (fits_two (d := 126) (fits_str _ _) (fits_str _ _) (by omega)) (by omega)

theorem fits_getMultisig (id : Nat) : (askGetMultisig id).Fits 128 :=
  fits_one (d := 127) (fits_one (d := 126) (fits_str _ _) (by omega)) (by omega)

variable {G : Texture} {P : Params}

theorem ask_eq {α : Type} {w : World} {a : Addr} {q : Json} (hq : q.Fits 128) (read : Json → Option α) :
    ask G P w a q read = match w a with
      | none => none
      | some s => match answers G P s q with
        | none => none
        | some reply => (fromStr G.finite reply.render).bind read := by
  unfold ask
  rw [fromStr_render G.finite hq]
  rfl

/-- an answer that is read as it was written -/
theorem reply_read {α : Type} {read : Json → Option α} {json : α → Json} {x : Option α}
    (h : ∀ a, x = some a → (json a).Fits 128 ∧ read (json a) = some a) :
    (match x.map json with
      | none => none
      | some reply => (fromStr G.finite reply.render).bind read) = x := by
  cases x with
  | none => rfl
  | some a =>
    obtain ⟨h1, h2⟩ := h a rfl
    show (fromStr G.finite (json a).render).bind read = some a
    rw [fromStr_render G.finite h1, Option.bind_some, h2]

theorem answers_isVerified {ms : List Message} (h : ∀ m ∈ ms, MessageTyped G.L m) (s : Store) :
    answers G P s (askIsVerified ms) = match s with
      | .verifier s => (answer (VV.isVerified P.H s ms)).map jsonStatuses
      | _ => none := by
  cases s with
  | verifier s =>
    dsimp only [answers, verifierAnswers, multisigAnswers]
    cases hx : answer (VV.isVerified P.H s ms) with
    | some r =>
      refine oneOf_head ?_
      rw [askIsVerified, onVariant_self, one_some _ (asMessages_json h), Option.bind_some, hx]; rfl
    | none =>
      rw [oneOf_tail (by rw [askIsVerified, onVariant_self, one_some _ (asMessages_json h), Option.bind_some, hx]; rfl),
        oneOf_tail (by rw [askIsVerified, onVariant_other (by decide)])]
      rfl
  | gateway s => rfl
  | registry s => rfl
  | multisig s => rfl
  | _ => rfl

theorem answers_isSetVerified {o : Std.Operators} (h : OperatorsFit o) (s : Store) :
    answers G P s (askIsSetVerified o) = match s with
      | .verifier s => (answer (VV.isWorkerSetVerified P.H s o)).map .bool
      | _ => none := by
  cases s with
  | verifier s =>
    dsimp only [answers, verifierAnswers, multisigAnswers]
    rw [oneOf_tail (by rw [askIsSetVerified, onVariant_other (by decide)])]
    cases hx : answer (VV.isWorkerSetVerified P.H s o) with
    | some r =>
      refine oneOf_head ?_
      rw [askIsSetVerified, onVariant_self, one_some _ (asOperators_json h), Option.bind_some, hx]; rfl
    | none =>
      rw [oneOf_tail (by rw [askIsSetVerified, onVariant_self, one_some _ (asOperators_json h), Option.bind_some, hx]; rfl)]
      rfl
  | gateway s => rfl
  | registry s => rfl
  | multisig s => rfl
  | _ => rfl

theorem answers_getMessages {ids : List CCId} (h : ∀ i ∈ ids, CCIdTyped G.L i) (s : Store) :
    answers G P s (askGetMessages ids) = match s with
      | .gateway s => (answer (Gateway.getMessages s ids)).map jsonMessages
      | _ => none := by
  cases s with
  | gateway s =>
    dsimp only [answers, gatewayAnswers, registryAnswers]
    rw [askGetMessages, onVariant_self, one_some _ (asVec_map (fun i hi => asCCId_json (h i hi))), Option.bind_some]
  | verifier s => rfl
  | registry s => rfl
  | multisig s => rfl
  | _ => rfl

theorem answers_activeWorkers {sv : Str} {c : ChainName} (h : c.Valid G.L) (s : Store) :
    answers G P s (askActiveWorkers sv c) = match s with
      | .registry s => (answer (Registry.getActiveWorkers s sv c)).map (fun ws => .arr (ws.map (jsonWorker G.T)))
      | _ => none := by
  cases s with
  | registry s =>
    dsimp only [answers, gatewayAnswers, registryAnswers]
    rw [askActiveWorkers, onVariant_self, two_some (by decide) (x := sv) rfl (asName_str h), Option.bind_some]
  | verifier s => rfl
  | gateway s => rfl
  | multisig s => rfl
  | _ => rfl

theorem answers_publicKey (hT : G.T.Faithful) (a : Addr) (kt : Multisig.KeyType) (s : Store) :
    answers G P s (askPublicKey G.T a kt) = match s with
      | .multisig s => (answer (Multisig.getPublicKey s a kt)).map jsonPublicKey
      | _ => none := by
  cases s with
  | multisig s =>
    dsimp only [answers, verifierAnswers, multisigAnswers]
    rw [oneOf_tail (by rw [askPublicKey, onVariant_other (by decide)])]
    cases hx : answer (Multisig.getPublicKey s a kt) with
    | some r =>
      refine oneOf_head ?_
      rw [askPublicKey, onVariant_self, two_some (by decide) (asAddr_str hT a) (asKeyType_json kt), Option.bind_some, hx]
      rfl
    | none =>
      rw [oneOf_tail (by
        rw [askPublicKey, onVariant_self, two_some (by decide) (asAddr_str hT a) (asKeyType_json kt), Option.bind_some, hx]
        rfl)]
      rfl
  | verifier s => rfl
  | gateway s => rfl
  | registry s => rfl
  | _ => rfl

theorem answers_getMultisig {id : Nat} (h : id ≤ u64Max) (s : Store) :
    answers G P s (askGetMultisig id) = match s with
      | .multisig s => (Multisig.getMultisig s id).map (jsonSession G.T)
      | _ => none := by
  cases s with
  | multisig s =>
    dsimp only [answers, verifierAnswers, multisigAnswers]
    cases hx : Multisig.getMultisig s id with
    | some r =>
      refine oneOf_head ?_
      rw [askGetMultisig, onVariant_self, one_some _ (asUint_jsonUint h), Option.bind_some, hx]; rfl
    | none =>
      rw [oneOf_tail (by rw [askGetMultisig, onVariant_self, one_some _ (asUint_jsonUint h), Option.bind_some, hx]; rfl),
        oneOf_tail (by rw [askGetMultisig, onVariant_other (by decide)])]
      rfl
  | verifier s => rfl
  | gateway s => rfl
  | registry s => rfl
  | _ => rfl

end Amp.Wire
