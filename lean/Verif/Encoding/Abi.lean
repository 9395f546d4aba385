import Verif.Encoding.Types

/-!
# The ABI encoding (`contracts/multisig-prover/src/encoding/abi.rs`) and `ethabi::encode` 18.0.0

`ethabi` is not part of `/repo`; its encoder is modelled here from its documentation and checked against
the encodings in `/repo/contracts/multisig-prover/src/test/test_data.rs` (`Verif/Encoding/AbiProps.lean`).
-/

namespace Amp.Encoding.Abi

open Amp.Multisig (Signature PublicKey Signer WorkerSet)

/-- a value that is not an array (`ethabi::Token`; `String` is encoded like `Bytes`) -/
inductive Elem
  | address (b : Bytes)
  | uint (n : Nat)
  | fixedBytes (b : Bytes)
  | bytes (b : Bytes)
  deriving DecidableEq, Repr

/-- `ethabi::Token`; only arrays of non-arrays occur -/
inductive Token
  | elem (e : Elem)
  | array (es : List Elem)
  deriving DecidableEq, Repr

/-- pad with zeros to a multiple of 32 bytes -/
def pad32 (b : Bytes) : Bytes := b ++ List.replicate ((32 - b.length % 32) % 32) 0

/-- a 32-byte word -/
def word (n : Nat) : Bytes := be 32 n

/-- `ethabi::encoder::Mediate`: either the bytes that go into the head, or the bytes that go into the tail
with their offset in the head -/
inductive Mediate
  | raw (head : Bytes)
  | dyn (tail : Bytes)
  deriving DecidableEq, Repr

/-- length of the part in the head -/
def Mediate.headLen : Mediate → Nat
  | .raw b => b.length
  | .dyn _ => 32

/-- length of the part in the tail -/
def Mediate.tailLen : Mediate → Nat
  | .raw _ => 0
  | .dyn b => b.length

/-- all heads; `off` is the offset of the next tail -/
def heads (off : Nat) : List Mediate → Bytes
  | [] => []
  | .raw b :: t => b ++ heads off t
  | .dyn b :: t => word off ++ heads (off + b.length) t

/-- all tails -/
def tails : List Mediate → Bytes
  | [] => []
  | .raw _ :: t => tails t
  | .dyn b :: t => b ++ tails t

/-- `ethabi::encoder::encode_head_tail_append` -/
def headTail (ms : List Mediate) : Bytes := heads ((ms.map Mediate.headLen).sum) ms ++ tails ms

/-- `ethabi::encoder::encode_token`, non-arrays: fixed bytes take as many words as they need, so none for
the empty string -/
def Elem.mediate : Elem → Mediate
  | .address b => .raw (List.replicate 12 0 ++ b)
  | .uint n => .raw (word n)
  | .fixedBytes b => .raw (pad32 b)
  | .bytes b => .dyn (word b.length ++ pad32 b)

/-- `ethabi::encoder::encode_token` -/
def Token.mediate : Token → Mediate
  | .elem e => e.mediate
  | .array es => .dyn (word es.length ++ headTail (es.map Elem.mediate))

/-- `ethabi::encode`.  Lengths and offsets are 32-bit: beyond that the program aborts. -/
def ethabiEncode (ts : List Token) : Except Err Bytes :=
  if (headTail (ts.map Token.mediate)).length < 2 ^ 32 then .ok (headTail (ts.map Token.mediate))
  else .error .panic

/-- a string as a token -/
def strTok (s : Str) : Elem := .bytes (utf8Bytes s)

/-- `ethereum_types::Address::from_slice`: panics unless 20 bytes -/
def addressTok (b : Bytes) : Except Err Elem :=
  if b.length = 20 then .ok (.address b) else .error .panic

/-- `abi.rs:22-46` (`encode`) -/
def encode (d : Data) : Except Err Bytes :=
  ethabiEncode [
    .elem (.uint d.destinationChainId),
    .array (d.commands.map (fun c => .fixedBytes c.id)),
    .array (d.commands.map (fun c => strTok c.ty.show)),
    .array (d.commands.map (fun c => .bytes c.params))]

/-- `abi.rs:52-55` -/
def digestPrefix : Bytes := 0x19 :: utf8Bytes ("Ethereum Signed Message:\n32".toList)

/-- `abi.rs:48-59` (`msg_digest`) -/
def msgDigest (X : Ext) (d : Data) : Except Err Bytes :=
  match encode d with
  | .error e => .error e
  | .ok b => .ok (X.keccak (digestPrefix ++ X.keccak b))

/-- `abi.rs:205-213` (`evm_address`) -/
def evmAddress (X : Ext) (pubKey : Bytes) : Except Err Bytes :=
  match X.uncompress pubKey with
  | none => .error .invalidPublicKey
  | some p => .ok ((X.keccak (p.drop 1)).drop 12)

/-- `abi.rs:169-171` (`add27`) -/
def add27 (b : Nat) : Nat := b + 27

/-- `multisig/src/key.rs:31-53` (`to_recoverable`): the signature with the transformed recovery id -/
def toRecoverable (X : Ext) (digest : Bytes) (key : PublicKey) (sig : Bytes) (f : Nat → Nat) :
    Option Signature :=
  match X.recoveryId digest key.bytes sig with
  | none => none
  | some r => some (.ecdsaRecoverable (sig ++ [f r]))

/-- `abi.rs:66-83`: make the signatures recoverable; one for which this fails is dropped -/
def recoverableSigners (X : Ext) (digest : Bytes) (f : Nat → Nat)
    (signers : List (Signer × Option Signature)) : List (Signer × Option Signature) :=
  signers.map (fun e => (e.1, match e.2 with
    | some (.ecdsa b) => toRecoverable X digest e.1.pubKey b f
    | s => s))

/-- `abi.rs:148-167` (`make_evm_operators_with_sigs`, `make_evm_operator`) -/
def makeOperatorsWithSigs (X : Ext) (signers : List (Signer × Option Signature)) :
    Except Err (List Operator) :=
  mapE (fun e => match evmAddress X e.1.pubKey.bytes with
    | .error x => .error x
    | .ok a => .ok ⟨a, e.1.weight, e.2⟩) signers

/-- `abi.rs:99-131` (`encode_proof`) -/
def encodeProof (X : Ext) (quorum : Nat) (signers : List (Signer × Option Signature)) :
    Except Err Bytes :=
  match makeOperatorsWithSigs X signers with
  | .error e => .error e
  | .ok ops =>
    let sorted := sortBy opLe ops
    match mapE (fun o => addressTok o.address) sorted with
    | .error e => .error e
    | .ok addresses =>
      ethabiEncode [
        .array addresses,
        .array (sorted.map (fun o => .uint o.weight)),
        .elem (.uint quorum),
        .array (sorted.filterMap (fun o => o.signature.map (fun s => .bytes s.bytes)))]

/-- `abi.rs:92`: the first four bytes of the hash of `execute(bytes)` -/
def selector (X : Ext) : Bytes := (X.keccak (utf8Bytes "execute(bytes)".toList)).take 4

/-- `abi.rs:61-97` (`encode_execute_data`) -/
def encodeExecuteData (X : Ext) (d : Data) (quorum : Nat)
    (signers : List (Signer × Option Signature)) : Except Err Bytes :=
  match msgDigest X d with
  | .error e => .error e
  | .ok digest =>
    match encode d with
    | .error e => .error e
    | .ok b =>
      match encodeProof X quorum (recoverableSigners X digest add27 signers) with
      | .error e => .error e
      | .ok p =>
        match ethabiEncode [.elem (.bytes b), .elem (.bytes p)] with
        | .error e => .error e
        | .ok param =>
          match ethabiEncode [.elem (.bytes param)] with
          | .error e => .error e
          | .ok input => .ok (selector X ++ input)

/-- `abi.rs:134-144, 174-184`: the operators in the order of the worker set; a bad key panics -/
def operatorsOf (X : Ext) (ws : WorkerSet) : Except Err (List (Bytes × Nat)) :=
  mapE (fun e => match evmAddress X e.2.pubKey.bytes with
    | .error _ => .error .panic
    | .ok a => .ok (a, e.2.weight)) ws.signers

/-- `abi.rs:133-146` (`make_operators`) -/
def makeOperators (X : Ext) (ws : WorkerSet) : Except Err Std.Operators :=
  match operatorsOf X ws with
  | .error e => .error e
  | .ok l => .ok (Std.Operators.new l ws.threshold)

/-- `abi.rs:173-203` (`transfer_operatorship_params`) -/
def transferOperatorshipParams (X : Ext) (ws : WorkerSet) : Except Err Bytes :=
  match operatorsOf X ws with
  | .error e => .error e
  | .ok l =>
    let sorted := Std.sortByAddr l
    match mapE (fun o => addressTok o.1) sorted with
    | .error e => .error e
    | .ok addresses =>
      ethabiEncode [
        .array addresses,
        .array (sorted.map (fun o => .uint o.2)),
        .elem (.uint ws.threshold)]

/-- `abi.rs:215-236` (`command_params`) -/
def commandParams (X : Ext) (sourceChain sourceAddress destinationAddress : Str)
    (payloadHash : Bytes) : Except Err Bytes :=
  match X.parseH160 destinationAddress with
  | none => .error .invalidMessage
  | some dst =>
    ethabiEncode [
      .elem (strTok sourceChain),
      .elem (strTok sourceAddress),
      .elem (.address dst),
      .elem (.fixedBytes payloadHash),
      .elem (.fixedBytes []),
      .elem (.uint 0)]

end Amp.Encoding.Abi
