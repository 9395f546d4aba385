import Verif.Wire.TextChain
import Verif.Chain.Structure

/-!
# Specification for C95: histories of transactions with messages as text
-/

namespace Amp.Wire

open Amp.Router (ChainName Lowering)
open Amp.Chain (Msg Params World Setup Entry Tx)

/-- texts of addresses are read back, empty text is no address, and the fields of a service are of their types -/
structure Sound (G : Texture) : Prop where
  faithful : G.T.Faithful
  empty : G.T.parse [] = none
  unread : UnreadTyped G.u

/-- names of chains in the configuration of provers and verifiers are valid (`multisig-prover/src/contract.rs:40`,
`voting-verifier/src/msg.rs:21`) -/
def SetupTyped (L : Lowering) (setup : Setup) : Prop :=
  (∀ a cfg sv kt, setup a = some (.prover cfg sv kt) → ChainName.Valid L cfg.chainName) ∧
    ∀ a cfg, setup a = some (.verifier cfg) → ChainName.Valid L cfg.sourceChain

/-- block height and time are `u64`, amounts of coins `u128` -/
structure InRange (t : TextTx) : Prop where
  height : t.block.height ≤ u64Max
  time : t.block.time ≤ u64Max
  funds : ∀ m ∈ t.msgs, ∀ c ∈ m.2.1, c.2 ≤ u128Max

/-- the storage after a history of transactions with messages as text -/
def textWorldAfter (G : Texture) (P : Params) (setup : Setup) (ts : List TextTx) : World :=
  runCalls (execText G P) (Chain.genesis setup) ts

/-- the successful calls of such a history -/
def textLog (G : Texture) (P : Params) (setup : Setup) (ts : List TextTx) : List Entry :=
  (outs (execText G P) (Chain.genesis setup) ts).flatMap Prod.snd

/-- a message that a contract of this kind does not understand -/
def noise : Party → Msg
  | .prover => .verifier (.endPoll 0)
  | _ => .prover .updateWorkerSet

/-- what a text says to the contract at an address -/
def meant (G : Texture) (setup : Setup) (a : Addr) (t : Str) : Msg :=
  match setup a with
  | none => noise .prover
  | some k =>
    match readFor G (party k.init) t with
    | some m => m
    | none => noise (party k.init)

/-- what a transaction says -/
def meaning (G : Texture) (setup : Setup) (t : TextTx) : Tx :=
  ⟨t.sender, t.msgs.map (fun m => (m.1, m.2.1, meant G setup m.1 m.2.2)), t.block, t.accepts, t.gas⟩

/-- a transaction written as text -/
def written (G : Texture) (tx : Tx) : TextTx :=
  ⟨tx.sender, tx.msgs.map (fun m => (m.1, m.2.1, write G m.2.2)), tx.block, tx.accepts, tx.gas⟩

end Amp.Wire
