import Verif.Base.Prelude

/-!
# Where the contracts store their data

The contracts keep everything in one store of bytes by bytes each, through the items and maps of `cw-storage-plus`
1.1.0 (`Cargo.lock`; its source is not part of the repository).  This file models the raw keys it builds, and lists the
items and maps of all contracts.  Strings are the bytes of their UTF-8 encoding.
-/

namespace Amp.Store

/-- bytes -/
abbrev Bytes := List Nat

/-- a name given as ASCII text -/
def ascii (s : String) : Bytes := s.toList.map Char.toNat

/-- `u64::to_be_bytes` -/
def be : Nat → Nat → Bytes
  | 0, _ => []
  | k + 1, n => be k (n / 256) ++ [n % 256]

/-- `cw_storage_plus::helpers::encode_length` followed by the part itself; panics if the part is too long -/
def prefixed (b : Bytes) : Option Bytes :=
  if b.length ≤ 65535 then some (be 2 b.length ++ b) else none

/-- `cw_storage_plus::helpers::nested_namespaces_with_key` without the last part: all parts with their lengths -/
def prefixedAll : List Bytes → Option Bytes
  | [] => some []
  | b :: t =>
    match prefixed b, prefixedAll t with
    | some x, some y => some (x ++ y)
    | _, _ => none

/-- a place in the store of a contract: an item (no parts), or the entry of a map under a key of one or more parts -/
structure Loc where
  name : Bytes
  parts : List Bytes
  deriving DecidableEq, Repr

/-- `Item::new`/`save`: the name; `Path::new`: namespace and all parts but the last with their lengths, and the last
part as it is; `none` is a panic -/
def Loc.raw (l : Loc) : Option Bytes :=
  match l.parts.getLast? with
  | none => some l.name
  | some z =>
    match prefixedAll (l.name :: l.parts.dropLast) with
    | none => none
    | some p => some (p ++ z)

/-- `Prefix::new`: the raw prefix that `prefix(..).range(..)` goes through -/
def rangePrefix (name : Bytes) (parts : List Bytes) : Option Bytes := prefixedAll (name :: parts)

/-- the items (0) and maps (number of parts of their keys) of a contract -/
abbrev Schema := List (Bytes × Nat)

/-! ## The contracts -/

/-- `connection-router/src/state.rs:252-263`: key of a `CrossChainId` -/
@[ext] structure CcId where
  chain : Bytes
  id : Bytes
  deriving DecidableEq, Repr

/-- `multisig/src/key.rs:182-195` -/
inductive KeyType
  | ecdsa
  | ed25519
  deriving DecidableEq, Repr

/-- `*self as u8` -/
def KeyType.byte : KeyType → Nat
  | .ecdsa => 0
  | .ed25519 => 1

/-- `connection-router/src/state.rs:93`, `138-152`: configuration, chains, and the index of chains by gateway
(`MultiIndex`: the map `gateways` with the indexed value and the primary key) -/
inductive RouterSlot
  | config
  | chain (name : Bytes)
  | byGateway (gateway chain : Bytes)
  deriving DecidableEq, Repr

def RouterSlot.loc : RouterSlot → Loc
  | .config => ⟨ascii "config", []⟩
  | .chain n => ⟨ascii "chains", [n]⟩
  | .byGateway g n => ⟨ascii "gateways", [g, n]⟩

def routerSchema : Schema := [(ascii "config", 0), (ascii "chains", 1), (ascii "gateways", 2)]

/-- `gateway/src/state.rs:25-26` -/
inductive GatewaySlot
  | config
  | outgoing (id : CcId)
  deriving DecidableEq, Repr

def GatewaySlot.loc : GatewaySlot → Loc
  | .config => ⟨ascii "config", []⟩
  | .outgoing i => ⟨ascii "outgoing_messages", [i.chain, i.id]⟩

def gatewaySchema : Schema := [(ascii "config", 0), (ascii "outgoing_messages", 2)]

/-- `nexus-gateway/src/state.rs:10-11` -/
inductive NexusSlot
  | config
  | routed (id : CcId)
  deriving DecidableEq, Repr

def NexusSlot.loc : NexusSlot → Loc
  | .config => ⟨ascii "config", []⟩
  | .routed i => ⟨ascii "routed_message_ids", [i.chain, i.id]⟩

def nexusSchema : Schema := [(ascii "config", 0), (ascii "routed_message_ids", 2)]

/-- `multisig-prover/src/state.rs:28-35` -/
inductive ProverSlot
  | config
  | replyBatch
  | currentWorkerSet
  | nextWorkerSet
  | batch (id : Bytes)
  | sessionBatch (session : Nat)
  deriving DecidableEq, Repr

def ProverSlot.loc : ProverSlot → Loc
  | .config => ⟨ascii "config", []⟩
  | .replyBatch => ⟨ascii "reply_tracker", []⟩
  | .currentWorkerSet => ⟨ascii "current_worker_set", []⟩
  | .nextWorkerSet => ⟨ascii "next_worker_set", []⟩
  | .batch i => ⟨ascii "command_batch", [i]⟩
  | .sessionBatch n => ⟨ascii "multisig_session_batch", [be 8 n]⟩

def proverSchema : Schema :=
  [(ascii "config", 0), (ascii "reply_tracker", 0), (ascii "current_worker_set", 0), (ascii "next_worker_set", 0),
   (ascii "command_batch", 1), (ascii "multisig_session_batch", 1)]

/-- `multisig/src/state.rs:21-76` -/
inductive MultisigSlot
  | config
  | counter
  | session (id : Nat)
  | signature (id : Nat) (signer : Bytes)
  | workerSet (id : Bytes)
  | pubKey (owner : Bytes) (type : KeyType)
  | authorized (caller : Bytes)
  deriving DecidableEq, Repr

def MultisigSlot.loc : MultisigSlot → Loc
  | .config => ⟨ascii "config", []⟩
  | .counter => ⟨ascii "signing_session_counter", []⟩
  | .session n => ⟨ascii "signing_sessions", [be 8 n]⟩
  | .signature n a => ⟨ascii "signatures", [be 8 n, a]⟩
  | .workerSet i => ⟨ascii "worker_sets", [i]⟩
  | .pubKey a t => ⟨ascii "registered_pub_keys", [a, [t.byte]]⟩
  | .authorized a => ⟨ascii "authorized_callers", [a]⟩

def multisigSchema : Schema :=
  [(ascii "config", 0), (ascii "signing_session_counter", 0), (ascii "signing_sessions", 1), (ascii "signatures", 2),
   (ascii "worker_sets", 1), (ascii "registered_pub_keys", 2), (ascii "authorized_callers", 1)]

/-- `rewards/src/state.rs:169-184` -/
inductive RewardsSlot
  | config
  | params
  | tally (contract : Bytes) (epoch : Nat)
  | event (id contract : Bytes)
  | pool (contract : Bytes)
  | watermark (contract : Bytes)
  deriving DecidableEq, Repr

def RewardsSlot.loc : RewardsSlot → Loc
  | .config => ⟨ascii "config", []⟩
  | .params => ⟨ascii "params", []⟩
  | .tally a n => ⟨ascii "tallies", [a, be 8 n]⟩
  | .event i a => ⟨ascii "events", [i, a]⟩
  | .pool a => ⟨ascii "pools", [a]⟩
  | .watermark a => ⟨ascii "rewards_watermarks", [a]⟩

def rewardsSchema : Schema :=
  [(ascii "config", 0), (ascii "params", 0), (ascii "tallies", 2), (ascii "events", 2), (ascii "pools", 1),
   (ascii "rewards_watermarks", 1)]

/-- `service-registry/src/state.rs:14`, `131-136` -/
inductive RegistrySlot
  | config
  | service (name : Bytes)
  | supports (service chain worker : Bytes)
  | worker (service worker : Bytes)
  deriving DecidableEq, Repr

def RegistrySlot.loc : RegistrySlot → Loc
  | .config => ⟨ascii "config", []⟩
  | .service n => ⟨ascii "services", [n]⟩
  | .supports n c w => ⟨ascii "workers_per_chain", [n, c, w]⟩
  | .worker n w => ⟨ascii "workers", [n, w]⟩

def registrySchema : Schema :=
  [(ascii "config", 0), (ascii "services", 1), (ascii "workers_per_chain", 3), (ascii "workers", 2)]

/-- `voting-verifier/src/state.rs:75-83`, `packages/axelar-wasm-std/src/voting.rs:109-118` -/
inductive VerifierSlot
  | config
  | counter
  | poll (id : Nat)
  | message (hash : Bytes)
  | workerSet (hash : Bytes)
  deriving DecidableEq, Repr

def VerifierSlot.loc : VerifierSlot → Loc
  | .config => ⟨ascii "config", []⟩
  | .counter => ⟨ascii "poll_id", []⟩
  | .poll n => ⟨ascii "polls", [be 8 n]⟩
  | .message h => ⟨ascii "poll_messages", [h]⟩
  | .workerSet h => ⟨ascii "poll_worker_sets", [h]⟩

def verifierSchema : Schema :=
  [(ascii "config", 0), (ascii "poll_id", 0), (ascii "polls", 1), (ascii "poll_messages", 1),
   (ascii "poll_worker_sets", 1)]

/-! ## Using the store -/

/-- what a contract does with its store -/
inductive Access (S V : Type)
  | write (s : S) (v : V)
  | remove (s : S)
  | read (s : S)

/-- accesses through keys: the store afterwards and the answers to the reads; `none` if a key cannot be built -/
def runRaw {S V : Type} (raw : S → Option Bytes) : KV Bytes V → List (Access S V) → Option (KV Bytes V × List (Option V))
  | m, [] => some (m, [])
  | m, .write s v :: t =>
    match raw s with
    | none => none
    | some k => runRaw raw (m.set k v) t
  | m, .remove s :: t =>
    match raw s with
    | none => none
    | some k => runRaw raw (m.erase k) t
  | m, .read s :: t =>
    match raw s with
    | none => none
    | some k =>
      match runRaw raw m t with
      | none => none
      | some (m', rs) => some (m', m k :: rs)

end Amp.Store
