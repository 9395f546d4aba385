import Verif.Wire.Api
import Verif.Wire.EventLemmas

/-!
# Specification for C106
-/

namespace Amp.Wire.Api

open Amp.Encoding (Bytes)
open Amp.Router (Lowering)

/-- what the comment above `CHAIN_NAME_REGEX` says (`connection-router-api/src/error.rs:3-5`): perhaps one capital letter,
then one or more small letters, then perhaps a number, perhaps after a dash -/
def Named (s : Str) : Prop :=
  ∃ capital letters dash number : Str, s = capital ++ letters ++ dash ++ number ∧
    capital.length ≤ 1 ∧ (∀ c ∈ capital, 'A' ≤ c ∧ c ≤ 'Z') ∧
    letters ≠ [] ∧ (∀ c ∈ letters, 'a' ≤ c ∧ c ≤ 'z') ∧
    (dash = [] ∨ dash = ['-'] ∧ number ≠ []) ∧ (∀ c ∈ number, '0' ≤ c ∧ c ≤ '9')

/-- `to_lowercase` is what it should be on ASCII -/
def OnAscii (L : Lowering) : Prop := ∀ s : Str, (∀ c ∈ s, c.toNat < 128) → L.f s = s.map Char.toLower

/-- a message there can be -/
structure MessageOk (m : Message) : Prop where
  source : Named m.sourceChain
  sourceAddress : m.sourceAddress ≠ []
  destination : Named m.destinationChain
  destinationAddress : m.destinationAddress ≠ []
  bytes : IsBytes m.payloadHash
  length : m.payloadHash.length = 32

/-- a message to the router there can be -/
def RouterOk : RouterMsg → Prop
  | .registerChain c g => Named c ∧ g ≠ []
  | .upgradeGateway c g => Named c ∧ g ≠ []
  | .freezeChain c _ => Named c
  | .unfreezeChain c _ => Named c
  | .routeMessages ms => ∀ m ∈ ms, MessageOk m

/-- a message to a gateway there can be -/
def GatewayOk : GatewayMsg → Prop
  | .verifyMessages ms => ∀ m ∈ ms, MessageOk m
  | .routeMessages ms => ∀ m ∈ ms, MessageOk m

/-- What a message to the router that carries no cross-chain messages asks for: the chain in small letters, the address the
text is of; nothing if the text is of no address. -/
def asked (T : Texts) : RouterMsg → Option Router.Msg
  | .registerChain c g => (T.parse g).map (.registerChain (c.map Char.toLower))
  | .upgradeGateway c g => (T.parse g).map (.upgradeGateway (c.map Char.toLower))
  | .freezeChain c d => some (.freezeChain (c.map Char.toLower) d)
  | .unfreezeChain c d => some (.unfreezeChain (c.map Char.toLower) d)
  | .routeMessages _ => some (.routeMessages [])

end Amp.Wire.Api
