import Verif.Encoding.Types

/-!
# Model of the BCS encoding of batches (`contracts/multisig-prover/src/encoding/bcs.rs`)

The `bcs` crate (0.1.5) is modelled on the types that occur: lengths are ULEB128, integers little endian,
tuples and arrays without length. A sequence longer than 2^31 - 1 is an error.
-/

namespace Amp.Encoding.Bcs

open Amp.Multisig (Signature PublicKey Signer WorkerSet)

/-- ULEB128 with at most `k` bytes; `bcs-0.1.5/src/ser.rs` (`output_u32_as_uleb128`) -/
def uleb : Nat → Nat → Bytes
  | 0, _ => []
  | k + 1, n => if n < 128 then [n] else (n % 128 + 128) :: uleb k (n / 128)

/-- `bcs::MAX_SEQUENCE_LENGTH` -/
def maxSeqLen : Nat := 2147483647

/-- `output_seq_len`: five bytes are enough for a length below 2^31 -/
def seqLen (n : Nat) : Except Err Bytes :=
  if maxSeqLen < n then .error .bcs else .ok (uleb 5 n)

/-- the parts of a tuple one after the other; the first error wins -/
def cat : List (Except Err Bytes) → Except Err Bytes
  | [] => .ok []
  | x :: t =>
    match x with
    | .error e => .error e
    | .ok a =>
      match cat t with
      | .error e => .error e
      | .ok b => .ok (a ++ b)

/-- `Vec<u8>` and `String` (as UTF-8) -/
def bytesB (x : Bytes) : Except Err Bytes := cat [seqLen x.length, .ok x]

/-- a sequence: the number of elements and the elements -/
def seqB (xs : List (Except Err Bytes)) : Except Err Bytes := cat [seqLen xs.length, cat xs]

/-- `u64` -/
def u64B (n : Nat) : Bytes := le 8 n

/-- `u128` -/
def u128B (n : Nat) : Bytes := le 16 n

/-- `bcs.rs:184-186` (`u256_to_u128`) -/
def toU128 (n : Nat) : Except Err Nat := if n ≤ u128Max then .ok n else .error .panic

/-- `bcs.rs:188-193` (`u256_to_u64`) -/
def toU64 (n : Nat) : Except Err Nat := if n ≤ u64Max then .ok n else .error .panic

/-- `bcs.rs:110-116` (`make_command_id`) -/
def makeCommandId (id : Bytes) : Except Err Bytes := if id.length = 32 then .ok id else .error .panic

/-- `expect` on a serialization: an error aborts -/
def expectB : Except Err Bytes → Except Err Bytes
  | .ok b => .ok b
  | .error _ => .error .panic

/-- `bcs.rs:118-142` (`encode`) -/
def encode (d : Data) : Except Err Bytes :=
  match toU64 d.destinationChainId with
  | .error e => .error e
  | .ok chainId =>
    match mapE (fun c : Command => makeCommandId c.id) d.commands with
    | .error e => .error e
    | .ok ids =>
      expectB (cat [
        .ok (u64B chainId),
        seqB (ids.map .ok),
        seqB (d.commands.map (fun c => bytesB (utf8Bytes c.ty.show))),
        seqB (d.commands.map (fun c => bytesB c.params))])

/-- `bcs.rs:147` -/
def digestPrefix : Bytes := 0x19 :: utf8Bytes ("Sui Signed Message:\n".toList)

/-- `bcs.rs:144-153` (`msg_digest`) -/
def msgDigest (X : Ext) (d : Data) : Except Err Bytes :=
  match encode d with
  | .error e => .error e
  | .ok b => .ok (X.keccak (digestPrefix ++ b))

/-- `bcs.rs:159-176`: make the signatures recoverable, with the recovery id as it is; one for which this
fails is dropped (`multisig/src/key.rs:31-53`) -/
def recoverableSigners (X : Ext) (digest : Bytes) (signers : List (Signer × Option Signature)) :
    List (Signer × Option Signature) :=
  signers.map (fun e => (e.1, match e.2 with
    | some (.ecdsa b) =>
      match X.recoveryId digest e.1.pubKey.bytes b with
      | none => none
      | some r => some (.ecdsaRecoverable (b ++ [r]))
    | s => s))

/-- `bcs.rs:68-77` (`make_operators_with_sigs`) -/
def makeOperatorsWithSigs (signers : List (Signer × Option Signature)) : List Operator :=
  signers.map (fun e => ⟨e.1.pubKey.bytes, e.1.weight, e.2⟩)

/-- `bcs.rs:44-66` (`encode_proof`) -/
def encodeProof (quorum : Nat) (signers : List (Signer × Option Signature)) : Except Err Bytes :=
  let sorted := sortBy opLe (makeOperatorsWithSigs signers)
  match mapE (fun o : Operator => toU128 o.weight) sorted with
  | .error e => .error e
  | .ok weights =>
    match toU128 quorum with
    | .error e => .error e
    | .ok q =>
      cat [
        seqB (sorted.map (fun o => bytesB o.address)),
        seqB (weights.map (fun w => .ok (u128B w))),
        .ok (u128B q),
        seqB ((sorted.filterMap (fun o => o.signature.map Signature.bytes)).map bytesB)]

/-- `bcs.rs:154-182` (`encode_execute_data`) -/
def encodeExecuteData (X : Ext) (d : Data) (quorum : Nat)
    (signers : List (Signer × Option Signature)) : Except Err Bytes :=
  match msgDigest X d with
  | .error e => .error e
  | .ok digest =>
    match encode d with
    | .error e => .error e
    | .ok b =>
      match encodeProof quorum (recoverableSigners X digest signers) with
      | .error e => .error e
      | .ok p => cat [bytesB b, bytesB p]

/-- `bcs.rs:21-25, 30-34`: keys and weights in the order of the worker set -/
def operatorsOf (ws : WorkerSet) : List (Bytes × Nat) :=
  ws.signers.map (fun e => (e.2.pubKey.bytes, e.2.weight))

/-- `bcs.rs:20-27` (`make_operators`) -/
def makeOperators (ws : WorkerSet) : Std.Operators := Std.Operators.new (operatorsOf ws) ws.threshold

/-- `bcs.rs:29-42` (`transfer_operatorship_params`) -/
def transferOperatorshipParams (ws : WorkerSet) : Except Err Bytes :=
  let sorted := Std.sortByAddr (operatorsOf ws)
  match mapE (fun o : Bytes × Nat => toU128 o.2) sorted with
  | .error e => .error e
  | .ok weights =>
    match toU128 ws.threshold with
    | .error e => .error e
    | .ok t =>
      cat [
        seqB (sorted.map (fun o => bytesB o.1)),
        seqB (weights.map (fun w => .ok (u128B w))),
        .ok (u128B t)]

/-- `str::strip_prefix("0x").unwrap_or(..)` -/
def stripPrefix : Str → Str
  | '0' :: 'x' :: t => t
  | s => s

/-- `bcs.rs:79-108` (`command_params`) -/
def commandParams (sourceChain sourceAddress destinationAddress : Str) (payloadHash : Bytes) :
    Except Err Bytes :=
  match decodeHex (stripPrefix destinationAddress) with
  | none => .error .std
  | some dst =>
    if dst.length = 32 then
      expectB (cat [bytesB (utf8Bytes sourceChain), bytesB (utf8Bytes sourceAddress), .ok dst,
        bytesB payloadHash])
    else .error .invalidMessage

end Amp.Encoding.Bcs
