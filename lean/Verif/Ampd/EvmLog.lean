import Verif.Ampd.HandlersSpec
import Verif.Encoding.Abi

/-!
# The logs of an EVM gateway, as bytes

`ampd/src/evm/verifier.rs` has its events generated by `abigen!` (`ethers-contract` 2.0.8) from
`ampd/src/evm/abi/IAxelarGateway.json`; values are read by `ethabi` 18.0.0.  Neither is in `/repo`: the generated
`decode_log` and `ethabi::decode` are transcribed here.
-/

namespace Amp.Ampd.Evm

open Amp.Encoding (Bytes sliceAt ofBE)

/-- `ethers::abi::RawLog` (`evm/verifier.rs:76`: a log without what the chain adds) -/
structure RawLog where
  topics : List Bytes
  data : Bytes
  deriving DecidableEq, Repr

/-- What the code takes from elsewhere: Keccak-256; and `String::from_utf8_lossy`, which reads UTF-8 and puts U+FFFD in
place of what is not UTF-8. -/
structure LogLib where
  keccak : Bytes → Bytes
  lossy : Bytes → Str
  lossy_utf8 : ∀ s, lossy (utf8Bytes s) = s
  lossy_bad : ∀ b, (∀ s, b ≠ utf8Bytes s) → Char.ofNat 0xFFFD ∈ lossy b

/-- `ethabi::decoder::as_usize`: only the last four bytes may be other than zero -/
def asUsize (w : Bytes) : Option Nat :=
  if w.take 28 = List.replicate 28 0 then some (ofBE (w.drop 28)) else none

/-- `ethabi::decoder::decode_param` for `bytes` and `string`: the word at `pos` is the offset of the length, the bytes
follow; padding is not looked at -/
def readBytes (data : Bytes) (pos : Nat) : Option Bytes :=
  match sliceAt data pos 32 with
  | none => none
  | some w =>
    match asUsize w with
    | none => none
    | some off =>
      match sliceAt data off 32 with
      | none => none
      | some v =>
        match asUsize v with
        | none => none
        | some n => sliceAt data (off + 32) n

/-- `ethabi::decoder::decode_param` for `address`: the last twenty bytes of a word, the others are not looked at -/
def readAddress (data : Bytes) (pos : Nat) : Option Bytes :=
  match sliceAt data pos 32 with
  | none => none
  | some w => some (w.drop 12)

/-- `evm/abi/IAxelarGateway.json:133-169` (`ContractCall`): its signature -/
def contractCallText : Str := "ContractCall(address,string,string,bytes32,bytes)".toList

/-- `evm/abi/IAxelarGateway.json:342-354` (`OperatorshipTransferred`): its signature -/
def operatorshipText : Str := "OperatorshipTransferred(bytes)".toList

/-- the events of `evm/abi/IAxelarGateway.json:133-354` before `OperatorshipTransferred` in the order of their names, which is
the order of the variants of the generated enum; without `ContractCall`, which is the first -/
def earlierTexts : List Str := [
  "ContractCallApproved(bytes32,string,string,address,bytes32,bytes32,uint256)".toList,
  "ContractCallApprovedWithMint(bytes32,string,string,address,bytes32,string,uint256,bytes32,uint256)".toList,
  "ContractCallWithToken(address,string,string,bytes32,bytes,string,uint256)".toList,
  "Executed(bytes32)".toList]

/-- the hash of the signature of an event, its first topic -/
def LogLib.topic (K : LogLib) (text : Str) : Bytes := K.keccak (utf8Bytes text)

/-- generated (`abigen!`, `evm/verifier.rs:11`): `ContractCallFilter::decode_log`.  The first topic is the signature; the
other topics, one after the other, are decoded as `(address, bytes32)` and must be two; the data is decoded as
`(string, string, bytes)`. -/
def decodeContractCall (K : LogLib) (l : RawLog) : Option GatewayEvent :=
  match l.topics with
  | [] => none
  | t :: rest =>
    if t ≠ K.topic contractCallText then none
    else
      match readAddress rest.flatten 0, sliceAt rest.flatten 32 32 with
      | some sender, some hash =>
        if rest.length ≠ 2 then none
        else
          match readBytes l.data 0, readBytes l.data 32, readBytes l.data 64 with
          | some chain, some address, some _ => some (.contractCall sender (K.lossy chain) (K.lossy address) hash)
          | _, _, _ => none
      | _, _ => none

/-- generated (`abigen!`, `evm/verifier.rs:11`): `OperatorshipTransferredFilter::decode_log` -/
def decodeOperatorship (K : LogLib) (l : RawLog) : Option GatewayEvent :=
  match l.topics with
  | [] => none
  | t :: rest =>
    if t ≠ K.topic operatorshipText then none
    else if rest.length ≠ 0 then none
    else
      match readBytes l.data 0 with
      | some data => some (.operatorshipTransferred data)
      | none => none

/-- generated (`abigen!`, `evm/verifier.rs:11`): `IAxelarGatewayEvents::decode_log`, the first variant that can be
decoded.  Simplified: the logs of the other events are recognised by their first topic alone; that they are decoded or
not makes no difference in `evm/verifier.rs:27, 62, 77-79`. -/
def decodeLog (K : LogLib) (l : RawLog) : Option GatewayEvent :=
  match decodeContractCall K l with
  | some e => some e
  | none =>
    match l.topics with
    | [] => none
    | t :: _ => if t ∈ earlierTexts.map K.topic then some .other else decodeOperatorship K l

end Amp.Ampd.Evm
