import Verif.Wire.Events

/-!
# The contents of Sui events (`ampd/src/sui/verifier.rs`)

A Sui node shows the fields of an event as JSON (`SuiEvent::parsed_json`, a `serde_json::Value`).  The handlers read it
with `serde_json::from_value`.  `SuiAddress` and `Hash` are read by libraries that are not part of `/repo`
(`sui_types`, `ethers_core`): a string of hexadecimal digits for 32 bytes, with or without `0x`.
-/

namespace Amp.Wire

open Amp.Encoding (Bytes)
open Amp.Ampd.Sui (ContractCall)

/-- `sui/verifier.rs:12-18` (`ContractCall`), its fields in order -/
def callFields : List Str :=
  ["source_id".toList, "destination_chain".toList, "destination_address".toList, "payload_hash".toList]

/-- `sui/verifier.rs:20-23` (`OperatorshipTransferred`), its fields -/
def transferFields : List Str := ["payload".toList]

/-- `SuiAddress` and `Hash` (derived or library `Deserialize`): 32 bytes as hexadecimal digits in a string -/
def as32 (j : Json) : Option Bytes :=
  match asStr j with
  | none => none
  | some s => fixedHex 32 s

/-- `u8`: an unsigned integer in range -/
def asU8 (j : Json) : Option Nat :=
  match asU64 j with
  | none => none
  | some n => if n < 256 then some n else none

/-- `sui/verifier.rs:51` (`serde_json::from_value::<ContractCall>`): fields by name, others are ignored -/
def suiCall (j : Json) : Option ContractCall :=
  match field callFields "source_id".toList j, field callFields "destination_chain".toList j,
      field callFields "destination_address".toList j, field callFields "payload_hash".toList j with
  | some a, some b, some c, some d =>
    match as32 a, asStr b, asStr c, as32 d with
    | some source, some chain, some address, some hash => some ⟨source, chain, address, hash⟩
    | _, _, _, _ => none
  | _, _, _, _ => none

/-- `sui/verifier.rs:65` (`serde_json::from_value::<OperatorshipTransferred>`) -/
def suiTransfer (j : Json) : Option Bytes :=
  match field transferFields "payload".toList j with
  | none => none
  | some p => asVec asU8 p

/-- what the handlers read from the contents of events -/
def suiJson : Ampd.Sui.Json Json := ⟨suiCall, suiTransfer⟩

end Amp.Wire
