import Verif.Base.Steps
import Verif.Base.Strings
import Mathlib.Order.Nat

/-!
# The multisig contract (`contracts/multisig/src`)

Addresses are natural numbers, their order stands for the byte order of the address strings.  Byte strings
are lists of naturals.  The signature schemes and the worker set hash are arbitrary parameters.
Everything that aborts the transaction by a panic is the error `panic`.
-/

namespace Amp.Multisig

/-- `HexBinary` -/
abbrev Bin := List Nat

/-- `key.rs:9-14` -/
inductive KeyType
  | ecdsa
  | ed25519
  deriving DecidableEq, Repr

/-- `key.rs:16-22` (`Signature`): the variant and the bytes -/
inductive Signature
  | ecdsa (b : Bin)
  | ecdsaRecoverable (b : Bin)
  | ed25519 (b : Bin)
  deriving DecidableEq, Repr

/-- `key.rs:110-118` (`PublicKey`) -/
inductive PublicKey
  | ecdsa (b : Bin)
  | ed25519 (b : Bin)
  deriving DecidableEq, Repr

/-- `key.rs:151-158` -/
def PublicKey.keyType : PublicKey → KeyType
  | .ecdsa _ => .ecdsa
  | .ed25519 _ => .ed25519

/-- `key.rs:160-167` -/
def Signature.keyType : Signature → KeyType
  | .ecdsa _ => .ecdsa
  | .ecdsaRecoverable _ => .ecdsa
  | .ed25519 _ => .ed25519

/-- `key.rs:264-271, 283-290` -/
def PublicKey.bytes : PublicKey → Bin
  | .ecdsa b => b
  | .ed25519 b => b

/-- `key.rs:273-281` -/
def Signature.bytes : Signature → Bin
  | .ecdsa b => b
  | .ecdsaRecoverable b => b
  | .ed25519 b => b

/-- `error.rs`, and failures of the standard library -/
inductive Err
  | unauthorized
  | invalidMessageFormat
  | noActiveWorkerSetFound
  | signingSessionNotFound
  | notAParticipant
  | invalidSignatureFormat
  | invalidPublicKeyFormat
  | signingSessionClosed
  | keyTypeMismatch
  | signatureVerificationFailed
  | invalidSignature
  | duplicateSignature
  | std
  | panic
  deriving DecidableEq, Repr

/-- `key.rs:210-243` (`PublicKey::try_from`), also run when a key is deserialised (`key.rs:120-138`) -/
def PublicKey.tryFrom (kt : KeyType) (b : Bin) : Except Err PublicKey :=
  match kt with
  | .ecdsa => if b.length ≠ 33 ∧ b.length ≠ 65 then .error .invalidPublicKeyFormat else .ok (.ecdsa b)
  | .ed25519 => if b.length ≠ 32 then .error .invalidPublicKeyFormat else .ok (.ed25519 b)

/-- `key.rs:245-262` (`Signature::try_from`) -/
def Signature.tryFrom (kt : KeyType) (b : Bin) : Except Err Signature :=
  match kt with
  | .ecdsa =>
    if b.length = 65 then .ok (.ecdsaRecoverable b)
    else if b.length = 64 then .ok (.ecdsa b)
    else .error .invalidSignatureFormat
  | .ed25519 => if b.length = 64 then .ok (.ed25519 b) else .error .invalidSignatureFormat

/-- The signature schemes (`cosmwasm_crypto`), as parameters: message, signature, public key; `none` is
a failure of the library. -/
structure Crypto where
  secp256k1Verify : Bin → Bin → Bin → Option Bool
  ed25519Verify : Bin → Bin → Bin → Option Bool

/-- `key.rs:169-180` (`Signature::verify`), `secp256k1.rs:7-17`, `ed25519.rs:5-11` -/
def Signature.verify (C : Crypto) (sig : Signature) (msg : Bin) (key : PublicKey) : Except Err Bool :=
  if sig.keyType ≠ key.keyType then .error .keyTypeMismatch
  else
    match (match sig.keyType with
      | .ecdsa => C.secp256k1Verify msg sig.bytes key.bytes
      | .ed25519 => C.ed25519Verify msg sig.bytes key.bytes) with
    | none => .error .signatureVerificationFailed
    | some b => .ok b

/-- `msg.rs:69-75` (`Signer`) -/
structure Signer where
  address : Addr
  weight : Nat
  pubKey : PublicKey
  deriving DecidableEq, Repr

/-- `worker_set.rs:9-20` (`WorkerSet`) -/
structure WorkerSet where
  signers : OMap Addr Signer
  threshold : Nat
  createdAt : Nat
  deriving DecidableEq, Repr

/-- `types.rs:27-33` (`MultisigState`) -/
inductive SessionState
  | pending
  | completed (completedAt : Nat)
  deriving DecidableEq, Repr

/-- `signing.rs:13-19` (`SigningSession`) -/
structure Session where
  id : Nat
  workerSetId : Str
  msg : Bin
  state : SessionState
  deriving DecidableEq, Repr

/-- `state.rs:14-19` (`Config`) -/
structure Config where
  governance : Addr
  rewards : Addr
  gracePeriod : Nat
  deriving DecidableEq, Repr

/-- Storage (`state.rs:21-76`).  `signatures id` is the content of `SIGNATURES` with prefix `id`. -/
structure State where
  config : Config
  counter : Nat
  sessions : KV Nat Session
  signatures : Nat → OMap Addr Signature
  workerSets : KV Str WorkerSet
  pubKeys : KV (Addr × KeyType) Bin
  authorized : KV Addr Unit

/-- `contract.rs:18-35` (`instantiate`) -/
def init (cfg : Config) : State :=
  ⟨cfg, 0, KV.empty, fun _ => [], KV.empty, KV.empty, KV.empty⟩

/-- a signer of a worker set as it arrives in a message: the key is not validated yet -/
structure RawSigner where
  address : Addr
  weight : Nat
  keyType : KeyType
  key : Bin
  deriving DecidableEq, Repr

/-- a worker set as it arrives in a message: the entries of the JSON object -/
structure RawWorkerSet where
  signers : List (Addr × RawSigner)
  threshold : Nat
  createdAt : Nat
  deriving DecidableEq, Repr

/-- `msg.rs:19-51` (`ExecuteMsg`).  Of the optional signature verifier only the validity of the address
matters. -/
inductive Msg
  | startSigningSession (workerSetId : Str) (msg : Bin) (chain : Str) (sigVerifierValid : Bool)
  | submitSignature (sessionId : Nat) (signature : Bin)
  | registerWorkerSet (ws : RawWorkerSet)
  | registerPublicKey (kt : KeyType) (key : Bin)
  | authorizeCaller (a : Addr)
  | unauthorizeCaller (a : Addr)
  deriving DecidableEq, Repr

/-- a call: sender, block height -/
structure Call where
  sender : Addr
  height : Nat
  msg : Msg
  deriving DecidableEq, Repr

/-- `events.rs:11-45` (`Event`) -/
inductive Event
  | signingStarted (sessionId : Nat) (workerSetId : Str) (pubKeys : List (Addr × PublicKey)) (msg : Bin)
      (chain : Str)
  | signatureSubmitted (sessionId : Nat) (participant : Addr) (signature : Signature)
  | signingCompleted (sessionId : Nat) (completedAt : Nat)
  | publicKeyRegistered (worker : Addr) (key : PublicKey)
  | callerAuthorized (a : Addr)
  | callerUnauthorized (a : Addr)
  deriving DecidableEq, Repr

/-- a `RecordParticipation` message to the rewards contract: its address, the event id, the worker -/
structure Record where
  contract : Addr
  eventId : Str
  worker : Addr
  deriving DecidableEq, Repr

/-- the response: data, messages, events -/
structure Resp where
  data : Option Nat := none
  records : List Record := []
  events : List Event := []
  deriving DecidableEq, Repr

/-- deserialisation of a signer: `Uint256` weight, public key of the right length -/
def RawSigner.decode (r : RawSigner) : Except Err Signer :=
  if r.weight > u256Max then .error .std
  else
    match PublicKey.tryFrom r.keyType r.key with
    | .error e => .error e
    | .ok k => .ok ⟨r.address, r.weight, k⟩

/-- deserialisation of a worker set: a `BTreeMap` from a JSON object -/
def RawWorkerSet.decode (r : RawWorkerSet) : Except Err WorkerSet :=
  if r.threshold > u256Max ∨ r.createdAt > u64Max then .error .std
  else
    match mapE (fun e => match RawSigner.decode e.2 with
      | .error x => .error x
      | .ok s => .ok (e.1, s)) r.signers with
    | .error e => .error e
    | .ok l => .ok ⟨OMap.ofList l, r.threshold, r.createdAt⟩

/-- `types.rs:35-49` -/
def msgToSign (b : Bin) : Except Err Bin :=
  if b.length ≠ 32 then .error .invalidMessageFormat else .ok b

/-- `worker_set.rs:59-64` (`get_pub_keys`) -/
def WorkerSet.pubKeys (ws : WorkerSet) : List (Addr × PublicKey) :=
  ws.signers.map (fun e => (e.1, e.2.pubKey))

/-- `contract.rs:45-63, 102-133` (`start_signing_session`) -/
def startSigningSession (s : State) (sender : Addr) (workerSetId : Str) (msg : Bin) (chain : Str)
    (sigVerifierValid : Bool) : Except Err (State × Resp) :=
  match s.authorized sender with
  | none => .error .unauthorized
  | some () =>
    if sigVerifierValid = false then .error .std
    else
      match msgToSign msg with
      | .error e => .error e
      | .ok msg =>
        match s.workerSets workerSetId with
        | none => .error .noActiveWorkerSetFound
        | some ws =>
          if s.counter + 1 > u64Max then .error .panic
          else
            let id := s.counter + 1
            .ok ({ s with
                counter := id
                sessions := s.sessions.set id ⟨id, workerSetId, msg, .pending⟩ },
              { data := some id
                events := [.signingStarted id workerSetId ws.pubKeys msg chain] })

/-- `signing.rs:72-83` (`signers_weight`): the weights of all who signed; a signature of a non-member or
a sum beyond `Uint256` panics -/
def signersWeight (sigs : OMap Addr Signature) (ws : WorkerSet) : Except Err Nat :=
  match mapE (fun e => match ws.signers.get? e.1 with
    | none => .error Err.panic
    | some sg => .ok sg.weight) sigs with
  | .error e => .error e
  | .ok l => if l.sum > u256Max then .error .panic else .ok l.sum

/-- `signing.rs:31-44` (`recalculate_session_state`) -/
def recalculate (se : Session) (sigs : OMap Addr Signature) (ws : WorkerSet) (height : Nat) :
    Except Err Session :=
  match signersWeight sigs ws with
  | .error e => .error e
  | .ok w =>
    if se.state = .pending ∧ ws.threshold ≤ w then .ok { se with state := .completed height }
    else .ok se

/-- `signing.rs:47-70` (`validate_session_signature`) -/
def validateSignature (C : Crypto) (se : Session) (sig : Signature) (key : PublicKey)
    (grace height : Nat) : Except Err Unit :=
  match (match se.state with
    | .pending => Except.ok false
    | .completed c => if c + grace > u64Max then .error Err.panic else .ok (decide (c + grace < height)))
    with
  | .error e => .error e
  | .ok true => .error .signingSessionClosed
  | .ok false =>
    match sig.verify C se.msg key with
    | .error e => .error e
    | .ok false => .error .invalidSignature
    | .ok true => .ok ()

/-- `state.rs:38-57` (`save_signature`) -/
def saveSignature (s : State) (id : Nat) (a : Addr) (sig : Signature) : Except Err State :=
  match (s.signatures id).get? a with
  | some _ => .error .duplicateSignature
  | none =>
    .ok { s with signatures := fun i => if i = id then (s.signatures id).set a sig else s.signatures i }

/-- `contract.rs:252-296` (`signing_response`) -/
def signingResponse (id : Nat) (st : SessionState) (changed : Bool) (a : Addr) (sig : Signature)
    (rewards : Addr) : Resp :=
  { records := [⟨rewards, showNat id, a⟩]
    events := .signatureSubmitted id a sig ::
      match st with
      | .pending => []
      | .completed c => if changed then [.signingCompleted id c] else [] }

/-- `contract.rs:135-185` (`submit_signature`) -/
def submitSignature (C : Crypto) (s : State) (sender : Addr) (height : Nat) (id : Nat) (b : Bin) :
    Except Err (State × Resp) :=
  match s.sessions id with
  | none => .error .signingSessionNotFound
  | some se =>
    match s.workerSets se.workerSetId with
    | none => .error .std
    | some ws =>
      match ws.signers.get? sender with
      | none => .error .notAParticipant
      | some signer =>
        match Signature.tryFrom signer.pubKey.keyType b with
        | .error e => .error e
        | .ok sig =>
          match validateSignature C se sig signer.pubKey s.config.gracePeriod height with
          | .error e => .error e
          | .ok () =>
            match saveSignature s id sender sig with
            | .error e => .error e
            | .ok s1 =>
              match recalculate se (s1.signatures id) ws height with
              | .error e => .error e
              | .ok se' =>
                .ok ({ s1 with sessions := s1.sessions.set se'.id se' },
                  signingResponse id se'.state (decide (se.state ≠ se'.state)) sender sig
                    s.config.rewards)

/-- `contract.rs:187-195` (`register_worker_set`); `idOf` is `worker_set.rs:49-57` (`hash`, `id`): the
hexadecimal Keccak-256 of the JSON text -/
def registerWorkerSet (idOf : WorkerSet → Str) (s : State) (r : RawWorkerSet) :
    Except Err (State × Resp) :=
  match r.decode with
  | .error e => .error e
  | .ok ws => .ok ({ s with workerSets := s.workerSets.set (idOf ws) ws }, {})

/-- `contract.rs:197-215` (`register_pub_key`) -/
def registerPubKey (s : State) (sender : Addr) (kt : KeyType) (b : Bin) : Except Err (State × Resp) :=
  match PublicKey.tryFrom kt b with
  | .error e => .error e
  | .ok k =>
    .ok ({ s with pubKeys := s.pubKeys.set (sender, k.keyType) k.bytes },
      { events := [.publicKeyRegistered sender k] })

/-- `contract.rs:37-84` (`execute`), with `217-250` for the two access checks -/
def exec (C : Crypto) (idOf : WorkerSet → Str) (s : State) (c : Call) : Except Err (State × Resp) :=
  match c.msg with
  | .startSigningSession wid msg chain ok => startSigningSession s c.sender wid msg chain ok
  | .submitSignature id b => submitSignature C s c.sender c.height id b
  | .registerWorkerSet r => registerWorkerSet idOf s r
  | .registerPublicKey kt b => registerPubKey s c.sender kt b
  | .authorizeCaller a =>
    if s.config.governance ≠ c.sender then .error .unauthorized
    else .ok ({ s with authorized := s.authorized.set a () }, { events := [.callerAuthorized a] })
  | .unauthorizeCaller a =>
    if s.config.governance ≠ c.sender then .error .unauthorized
    else .ok ({ s with authorized := s.authorized.erase a }, { events := [.callerUnauthorized a] })

/-- `msg.rs:77-82` (`Multisig`) -/
structure Multisig where
  state : SessionState
  quorum : Nat
  signers : List (Signer × Option Signature)
  deriving DecidableEq, Repr

/-- `contract.rs:326-343` (`get_multisig`) -/
def getMultisig (s : State) (id : Nat) : Option Multisig :=
  match s.sessions id with
  | none => none
  | some se =>
    match s.workerSets se.workerSetId with
    | none => none
    | some ws =>
      some ⟨se.state, ws.threshold,
        ws.signers.map (fun e => (e.2, (s.signatures se.id).get? e.1))⟩

/-- `contract.rs:345-347` (`get_worker_set`) -/
def getWorkerSet (s : State) (wid : Str) : Option WorkerSet := s.workerSets wid

/-- `contract.rs:349-352` (`get_public_key`): not found is a query error, an undecodable key a panic -/
def getPublicKey (s : State) (a : Addr) (kt : KeyType) : Except Err PublicKey :=
  match s.pubKeys (a, kt) with
  | none => .error .std
  | some raw =>
    match PublicKey.tryFrom kt raw with
    | .error _ => .error .panic
    | .ok k => .ok k

end Amp.Multisig
