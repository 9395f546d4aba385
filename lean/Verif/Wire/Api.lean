import Verif.Wire.TextChain

/-!
# What clients built on the API packages write and read

`packages/connection-router-api` and `packages/gateway-api`: the messages of the router and of gateways as types of their
own, apart from the types of the contracts in `contracts/connection-router` and `contracts/gateway`.
-/

namespace Amp.Wire.Api

open Amp.Encoding (Bytes)
open Amp.Router (Direction Lowering)

/-- `[A-Z]` -/
def isUpper (c : Char) : Bool := 'A'.toNat ≤ c.toNat && c.toNat ≤ 'Z'.toNat

/-- `[a-z]` -/
def isLower (c : Char) : Bool := 'a'.toNat ≤ c.toNat && c.toNat ≤ 'z'.toNat

/-- `[0-9]` -/
def isDigit (c : Char) : Bool := '0'.toNat ≤ c.toNat && c.toNat ≤ '9'.toNat

/-- `[0-9]+$` -/
def digits (s : Str) : Bool := !s.isEmpty && s.all isDigit

/-- `(-?[0-9]+)?$` -/
def suffix : Str → Bool
  | [] => true
  | c :: t => if c = '-' then digits t else digits (c :: t)

/-- `[a-z]*(-?[0-9]+)?$` -/
def small : Str → Bool
  | [] => true
  | c :: t => if isLower c then small t else suffix (c :: t)

/-- `[a-z]+(-?[0-9]+)?$` -/
def smallSome : Str → Bool
  | [] => false
  | c :: t => isLower c && small t

/-- `CHAIN_NAME_REGEX` (`connection-router-api/src/error.rs:6`), `^[A-Z]?[a-z]+(-?[0-9]+)?$`, matched in
`FromStr for ChainName` (`primitives.rs:58-72`).  No two of the classes share a character, so there is never a choice to
go back on. -/
def chainName : Str → Bool
  | [] => false
  | c :: t => if isUpper c then smallSome t else smallSome (c :: t)

/-- `Message` (`connection-router-api/src/primitives.rs:15-30`) -/
structure Message where
  id : Str
  sourceChain : Str
  sourceAddress : Str
  destinationChain : Str
  destinationAddress : Str
  payloadHash : Bytes
  deriving DecidableEq

/-- `ExecuteMsg` (`connection-router-api/src/msg.rs:4-42`); addresses are texts -/
inductive RouterMsg
  | registerChain (chain gatewayAddress : Str)
  | upgradeGateway (chain contractAddress : Str)
  | freezeChain (chain : Str) (direction : Direction)
  | unfreezeChain (chain : Str) (direction : Direction)
  | routeMessages (msgs : List Message)
  deriving DecidableEq

/-- `ExecuteMsg` (`gateway-api/src/msg.rs:4-16`) -/
inductive GatewayMsg
  | verifyMessages (msgs : List Message)
  | routeMessages (msgs : List Message)
  deriving DecidableEq

/-- `PartialEq for ChainName` (`primitives.rs:51-56`) -/
def sameName (L : Lowering) (a b : Str) : Bool := L.f a == L.f b

/-! ### Written -/

/-- `Serialize for Message` (`cw_serde`): names as they are, the hash an array of numbers -/
def jsonMessage (m : Message) : Json :=
  .obj [("id".toList, .str m.id), ("source_chain".toList, .str m.sourceChain), ("source_address".toList, .str m.sourceAddress),
    ("destination_chain".toList, .str m.destinationChain), ("destination_address".toList, .str m.destinationAddress),
    ("payload_hash".toList, .arr (m.payloadHash.map .nat))]

/-- `Vec<Message>` -/
def jsonMessages (ms : List Message) : Json := .arr (ms.map jsonMessage)

/-- `Serialize for ExecuteMsg` (`connection-router-api/src/msg.rs:4-42`); the directions have the names of those of the
router (`primitives.rs:110-119`) -/
def jsonRouter : RouterMsg → Json
  | .registerChain c g => .obj [("register_chain".toList, .obj [("chain".toList, .str c), ("gateway_address".toList, .str g)])]
  | .upgradeGateway c g => .obj [("upgrade_gateway".toList, .obj [("chain".toList, .str c), ("contract_address".toList, .str g)])]
  | .freezeChain c d => .obj [("freeze_chain".toList, .obj [("chain".toList, .str c), ("direction".toList, .str (directionName d))])]
  | .unfreezeChain c d =>
    .obj [("unfreeze_chain".toList, .obj [("chain".toList, .str c), ("direction".toList, .str (directionName d))])]
  | .routeMessages ms => .obj [("route_messages".toList, jsonMessages ms)]

/-- `Serialize for ExecuteMsg` (`gateway-api/src/msg.rs:4-16`) -/
def jsonGateway : GatewayMsg → Json
  | .verifyMessages ms => .obj [("verify_messages".toList, jsonMessages ms)]
  | .routeMessages ms => .obj [("route_messages".toList, jsonMessages ms)]

/-! ### Read -/

/-- `ChainName`, read (`primitives.rs:58-80`) -/
def asName (j : Json) : Option Str :=
  match asStr j with
  | some s => if chainName s then some s else none
  | none => none

/-- the fields of a message -/
def fields : List Str := ["id".toList, "source_chain".toList, "source_address".toList, "destination_chain".toList,
  "destination_address".toList, "payload_hash".toList]

/-- `Message`, read; `Address` is a `nonempty::String` (`primitives.rs:88-103`) -/
def asMessage (j : Json) : Option Message :=
  match structOf fields j with
  | some [some a, some b, some c, some d, some e, some f] =>
    match asStr a, asName b, asText c, asName d, asText e, asBytes32 f with
    | some id, some sc, some sa, some dc, some da, some h => some ⟨id, sc, sa, dc, da, h⟩
    | _, _, _, _, _, _ => none
  | _ => none

/-- `ExecuteMsg` of the router, read -/
def readRouter : Json → Option RouterMsg := oneOf [
  onVariant "register_chain".toList (fun v => (two "chain".toList "gateway_address".toList asName asText v).map
    (fun p => .registerChain p.1 p.2)),
  onVariant "upgrade_gateway".toList (fun v => (two "chain".toList "contract_address".toList asName asText v).map
    (fun p => .upgradeGateway p.1 p.2)),
  onVariant "freeze_chain".toList (fun v => (two "chain".toList "direction".toList asName asDirection v).map
    (fun p => .freezeChain p.1 p.2)),
  onVariant "unfreeze_chain".toList (fun v => (two "chain".toList "direction".toList asName asDirection v).map
    (fun p => .unfreezeChain p.1 p.2)),
  onVariant "route_messages".toList (fun v => (asVec asMessage v).map .routeMessages)]

/-- `ExecuteMsg` of gateways, read -/
def readGateway : Json → Option GatewayMsg := oneOf [
  onVariant "verify_messages".toList (fun v => (asVec asMessage v).map .verifyMessages),
  onVariant "route_messages".toList (fun v => (asVec asMessage v).map .routeMessages)]

end Amp.Wire.Api
