import Verif.Wire.MsgSpec

/-!
# Queries between contracts as text

Contracts ask each other with `WasmQuery::Smart`: the question is JSON, read by the contract asked as its own `QueryMsg`, and
so is the answer, read by the contract that asks as the type it expects.  `Chain/Model.lean` looks into the other
contract's storage instead.

Queries that only users send (`GetService`, `GetWorker`, `GetWorkerSet`, `GetChainInfo`, `GetProof`) are in
`Wire/Users.lean`; no contract writes their names, so here they are not understood.
-/

namespace Amp.Wire

open Amp.Encoding (Bytes)
open Amp.Router (ChainName Lowering CCId Message)
open Amp.Chain (Msg Params Block World Store Pending Act answer)

/-- what JSON, chain names and addresses look like, and the fields of a service that are left out -/
structure Texture where
  finite : Str → Bool
  L : Lowering
  T : Texts
  u : Unread

/-! ### Answers -/

/-- `bool` -/
def asBool : Json → Option Bool
  | .bool b => some b
  | _ => none

/-- `Vec<(CrossChainId, bool)>` (`voting-verifier/src/query.rs:18-33`) -/
def jsonStatuses (l : List (CCId × Bool)) : Json := .arr (l.map (fun p => .arr [jsonCCId p.1, .bool p.2]))

/-- the same, read by the gateway (`gateway/src/contract/query.rs:22-35`) -/
def asStatuses (L : Lowering) : Json → Option (List (CCId × Bool)) := asVec (asPair (asCCId L) asBool)

/-- a structure with one field, others ignored -/
def looseOne {α : Type} (n : Str) (f : Json → Option α) (j : Json) : Option α :=
  match looseOf [n] j with
  | some [some a] => f a
  | _ => none

/-- a structure with two fields, others ignored -/
def looseTwo {α β : Type} (n m : Str) (f : Json → Option α) (g : Json → Option β) (j : Json) : Option (α × β) :=
  match looseOf [n, m] j with
  | some [some a, some b] =>
    match f a, g b with
    | some x, some y => some (x, y)
    | _, _ => none
  | _ => none

/-- `BondingState` (`service-registry/src/state.rs:60-73`); not a `cw_serde` type, so its names are those of Rust -/
def jsonBonding : Registry.BondingState → Json
  | .bonded n => .obj [("Bonded".toList, .obj [("amount".toList, jsonUint n)])]
  | .requestedUnbonding n => .obj [("RequestedUnbonding".toList, .obj [("amount".toList, jsonUint n)])]
  | .unbonding n t => .obj [("Unbonding".toList, .obj [("amount".toList, jsonUint n), ("unbonded_at".toList, jsonUint t)])]
  | .unbonded => .str "Unbonded".toList

/-- the same, read -/
def asBonding : Json → Option Registry.BondingState := oneOf [
  onVariant "Bonded".toList (fun v => (looseOne "amount".toList (asUint u128Max) v).map .bonded),
  onVariant "RequestedUnbonding".toList (fun v => (looseOne "amount".toList (asUint u128Max) v).map .requestedUnbonding),
  onVariant "Unbonding".toList (fun v => (looseTwo "amount".toList "unbonded_at".toList (asUint u128Max) (asUint u64Max) v).map
    (fun p => .unbonding p.1 p.2)),
  onUnit "Unbonded".toList .unbonded]

/-- `AuthorizationState` (`service-registry/src/state.rs:125-130`) -/
def authName : Registry.AuthState → Str
  | .notAuthorized => "NotAuthorized".toList
  | .authorized => "Authorized".toList

/-- the same, read -/
def asAuth : Json → Option Registry.AuthState := oneOf [
  onUnit "NotAuthorized".toList .notAuthorized, onUnit "Authorized".toList .authorized]

/-- `Worker` (`service-registry/src/state.rs:32-38`) -/
def jsonWorker (T : Texts) (w : Registry.Worker) : Json :=
  .obj [("address".toList, .str (T.text w.address)), ("bonding_state".toList, jsonBonding w.bonding),
    ("authorization_state".toList, .str (authName w.auth)), ("service_name".toList, .str w.service)]

/-- the same, read -/
def asWorker (T : Texts) (j : Json) : Option Registry.Worker :=
  match looseOf ["address".toList, "bonding_state".toList, "authorization_state".toList, "service_name".toList] j with
  | some [some a, some b, some c, some d] =>
    match asAddr T a, asBonding b, asAuth c, asStr d with
    | some ad, some bo, some au, some n => some ⟨ad, bo, au, n⟩
    | _, _, _, _ => none
  | _ => none

/-- `PublicKey` (`multisig/src/key.rs:110-118`) -/
def jsonPublicKey : Multisig.PublicKey → Json
  | .ecdsa b => jsonRawKey .ecdsa b
  | .ed25519 b => jsonRawKey .ed25519 b

/-- the same, read, with its length checked (`key.rs:120-140`) -/
def asPublicKey (j : Json) : Option Multisig.PublicKey :=
  match asRawKey j with
  | none => none
  | some (kt, b) => answer (Multisig.PublicKey.tryFrom kt b)

/-- `KeyType` (`multisig/src/key.rs:9-14`) -/
def keyTypeName : Multisig.KeyType → Str
  | .ecdsa => "ecdsa".toList
  | .ed25519 => "ed25519".toList

/-- the same, read -/
def asKeyType : Json → Option Multisig.KeyType := oneOf [onUnit "ecdsa".toList .ecdsa, onUnit "ed25519".toList .ed25519]

/-- `Signature` (`multisig/src/key.rs:16-27`) -/
def jsonSignature : Multisig.Signature → Json
  | .ecdsa b => .obj [("ecdsa".toList, jsonHex b)]
  | .ecdsaRecoverable b => .obj [("ecdsa_recoverable".toList, jsonHex b)]
  | .ed25519 b => .obj [("ed25519".toList, jsonHex b)]

/-- the same, read; lengths are not checked -/
def asSignature : Json → Option Multisig.Signature := oneOf [
  onVariant "ecdsa".toList (fun v => (asHex v).map .ecdsa),
  onVariant "ecdsa_recoverable".toList (fun v => (asHex v).map .ecdsaRecoverable),
  onVariant "ed25519".toList (fun v => (asHex v).map .ed25519)]

/-- `MultisigState` (`multisig/src/types.rs:26-32`) -/
def jsonSessionState : Multisig.SessionState → Json
  | .pending => .str "pending".toList
  | .completed h => .obj [("completed".toList, .obj [("completed_at".toList, .nat h)])]

/-- the same, read -/
def asSessionState : Json → Option Multisig.SessionState := oneOf [
  onUnit "pending".toList .pending,
  onVariant "completed".toList (fun v => (one "completed_at".toList (asNat u64Max) v).map .completed)]

/-- `Signer` (`multisig/src/msg.rs:69-75`) -/
def jsonFullSigner (T : Texts) (s : Multisig.Signer) : Json :=
  .obj [("address".toList, .str (T.text s.address)), ("weight".toList, jsonUint s.weight),
    ("pub_key".toList, jsonPublicKey s.pubKey)]

/-- the same, read -/
def asFullSigner (T : Texts) (j : Json) : Option Multisig.Signer :=
  match structOf ["address".toList, "weight".toList, "pub_key".toList] j with
  | some [some a, some b, some c] =>
    match asAddr T a, asUint u256Max b, asPublicKey c with
    | some ad, some w, some k => some ⟨ad, w, k⟩
    | _, _, _ => none
  | _ => none

/-- `Option<Signature>` -/
def jsonMaybe : Option Multisig.Signature → Json
  | none => .null
  | some s => jsonSignature s

/-- the same, read -/
def asMaybe (j : Json) : Option (Option Multisig.Signature) := asOption asSignature (some j)

/-- `Multisig` (`multisig/src/msg.rs:77-82`) -/
def jsonSession (T : Texts) (m : Multisig.Multisig) : Json :=
  .obj [("state".toList, jsonSessionState m.state), ("quorum".toList, jsonUint m.quorum),
    ("signers".toList, .arr (m.signers.map (fun p => .arr [jsonFullSigner T p.1, jsonMaybe p.2])))]

/-- the same, read by the prover -/
def asSession (T : Texts) (j : Json) : Option Multisig.Multisig :=
  match structOf ["state".toList, "quorum".toList, "signers".toList] j with
  | some [some a, some b, some c] =>
    match asSessionState a, asUint u256Max b, asVec (asPair (asFullSigner T) asMaybe) c with
    | some st, some q, some ss => some ⟨st, q, ss⟩
    | _, _, _ => none
  | _ => none

/-! ### Questions -/

/-- `IsVerified` (`aggregate-verifier/src/msg.rs:17-20`), as the gateway writes it -/
def askIsVerified (ms : List Message) : Json := .obj [("is_verified".toList, .obj [("messages".toList, jsonMessages ms)])]

/-- `IsWorkerSetVerified` (`voting-verifier/src/msg.rs:67-68`) -/
def askIsSetVerified (o : Std.Operators) : Json :=
  .obj [("is_worker_set_verified".toList, .obj [("new_operators".toList, jsonOperators o)])]

/-- `GetMessages` (`gateway/src/msg.rs:21-24`) -/
def askGetMessages (ids : List CCId) : Json :=
  .obj [("get_messages".toList, .obj [("message_ids".toList, .arr (ids.map jsonCCId))])]

/-- `GetActiveWorkers` (`service-registry/src/msg.rs:56-60`) -/
def askActiveWorkers (service : Str) (chain : ChainName) : Json :=
  .obj [("get_active_workers".toList, .obj [("service_name".toList, .str service), ("chain_name".toList, .str chain)])]

/-- `GetPublicKey` (`multisig/src/msg.rs:62-66`) -/
def askPublicKey (T : Texts) (worker : Addr) (kt : Multisig.KeyType) : Json :=
  .obj [("get_public_key".toList, .obj [("worker_address".toList, .str (T.text worker)),
    ("key_type".toList, .str (keyTypeName kt))])]

/-- `GetMultisig` (`multisig/src/msg.rs:56-57`) -/
def askGetMultisig (id : Nat) : Json := .obj [("get_multisig".toList, .obj [("session_id".toList, jsonUint id)])]

variable (G : Texture) (P : Params)

/-- the entry point `query` of the verifier (`voting-verifier/src/contract.rs:52-64`) -/
def verifierAnswers (s : VV.State) : Json → Option Json := oneOf [
  onVariant "is_verified".toList (fun v => (one "messages".toList (asVec (asMessage G.L)) v).bind (fun ms =>
    (answer (VV.isVerified P.H s ms)).map jsonStatuses)),
  onVariant "is_worker_set_verified".toList (fun v => (one "new_operators".toList asOperators v).bind (fun o =>
    (answer (VV.isWorkerSetVerified P.H s o)).map .bool))]

/-- of the gateway (`gateway/src/contract.rs:44-54`) -/
def gatewayAnswers (s : Gateway.State) : Json → Option Json :=
  onVariant "get_messages".toList (fun v => (one "message_ids".toList (asVec (asCCId G.L)) v).bind (fun ids =>
    (answer (Gateway.getMessages s ids)).map jsonMessages))

/-- of the service registry (`service-registry/src/contract.rs:329-345`) -/
def registryAnswers (s : Registry.State) : Json → Option Json :=
  onVariant "get_active_workers".toList (fun v =>
    (two "service_name".toList "chain_name".toList asStr (asName G.L) v).bind (fun p =>
      (answer (Registry.getActiveWorkers s p.1 p.2)).map (fun ws => .arr (ws.map (jsonWorker G.T)))))

/-- of the multisig contract (`multisig/src/contract.rs:299-352`) -/
def multisigAnswers (s : Multisig.State) : Json → Option Json := oneOf [
  onVariant "get_multisig".toList (fun v => (one "session_id".toList (asUint u64Max) v).bind (fun id =>
    (Multisig.getMultisig s id).map (jsonSession G.T))),
  onVariant "get_public_key".toList (fun v =>
    (two "worker_address".toList "key_type".toList (asAddr G.T) asKeyType v).bind (fun p =>
      (answer (Multisig.getPublicKey s p.1 p.2)).map jsonPublicKey))]

/-- what a contract answers to a question of another contract.  Router and prover have queries for users only, nexus
gateway and rewards contract have none. -/
def answers : Store → Json → Option Json
  | .verifier s => verifierAnswers G P s
  | .gateway s => gatewayAnswers G s
  | .registry s => registryAnswers G s
  | .multisig s => multisigAnswers G s
  | _ => fun _ => none

/-- `QuerierWrapper::query` with `WasmQuery::Smart`: the text of the question is read by the contract asked, and the text of
its answer by `read` -/
def ask {α : Type} (w : World) (a : Addr) (question : Json) (read : Json → Option α) : Option α :=
  match w a with
  | none => none
  | some s =>
    match (fromStr G.finite question.render).bind (answers G P s) with
    | none => none
    | some reply => (fromStr G.finite reply.render).bind read

/-- an answer where `Chain/Model.lean` has an error -/
def orStd {α : Type} : Option α → Except Encoding.Err α
  | some a => .ok a
  | none => .error .std

/-- `multisig-prover/src/execute.rs:73-148, 232-258`: what a call of the prover sees, asked for as text -/
def proverEnvText (w : World) (b : Block) (cfg : Prover.Config) (service : Str) (kt : Multisig.KeyType) : Prover.Env where
  height := b.height
  gateway := fun ids => orStd (ask G P w cfg.gateway (askGetMessages ids) (asVec (asMessage G.L)))
  activeWorkers := orStd (ask G P w cfg.serviceRegistry (askActiveWorkers service cfg.chainName) (asVec (asWorker G.T)))
  publicKey := fun a => orStd (ask G P w cfg.multisig (askPublicKey G.T a kt) asPublicKey)
  verified := fun o => orStd (ask G P w cfg.votingVerifier (askIsSetVerified o) asBool)

/-- `multisig-prover/src/query.rs:18-57` (`GetProof`), with the multisig contract asked by text -/
def askProofText (w : World) (a : Addr) (sid : Nat) : Except Encoding.Err Prover.Proof :=
  match w a with
  | some (.prover s _ _) =>
    Prover.getProof P.X s (fun id => ask G P w s.config.multisig (askGetMultisig id) (asSession G.T)) sid
  | _ => .error .std

/-- One call of one contract as `Chain.call`, but with its questions and their answers as text.  In the record of the call
(`Act`) the answers are the values that `Chain.call` puts there. -/
def callText (b : Block) (w : World) (p : Pending) (reply : Option (Option Nat)) : Except Unit (Store × Act) :=
  match w p.target with
  | some (.verifier s) =>
    match p.msg with
    | .verifier m =>
      let c : VV.Call := ⟨b.height, p.sender, ask G P w s.config.serviceRegistry
        (askActiveWorkers s.config.serviceName s.config.sourceChain) (asVec (asWorker G.T)), m⟩
      match VV.exec P.H s c with
      | .error _ => .error ()
      | .ok (s', r) => .ok (.verifier s', .verifier c r)
    | _ => .error ()
  | some (.gateway s) =>
    match p.msg.toGateway with
    | some m =>
      match Gateway.exec s ⟨p.sender, fun ms => ask G P w s.config.verifier (askIsVerified ms) (asStatuses G.L), m⟩ with
      | .error _ => .error ()
      | .ok (s', r) => .ok (.gateway s', .gateway ⟨p.sender, Chain.askVerifier P w s.config.verifier, m⟩ r)
    | none => .error ()
  | some (.prover s sv kt) =>
    match p.msg with
    | .prover m =>
      match Prover.exec P.X s ⟨m, proverEnvText G P w b s.config sv kt, reply⟩ with
      | .error _ => .error ()
      | .ok (s', r) =>
        .ok (.prover s' sv kt, .prover s.config.multisig ⟨m, Chain.proverEnv P w b s.config sv kt, reply⟩ r)
    | _ => .error ()
  | _ => Chain.call P b w p reply

end Amp.Wire
