import Verif.Wire.Queries

/-!
# The chain with messages as text

`Chain/Model.lean` again, but what is handed from contract to contract is text: transactions carry text, the contract
called reads it as its own `ExecuteMsg` and fails if it cannot, and what it sends is written as text.  So are the questions
that contracts ask each other while they are called, the answers, and the session id with which the multisig contract
replies to the prover.
-/

namespace Amp.Wire

open Amp.Router (Lowering)
open Amp.Chain (Msg Params Block World Store Setup Pending Entry Tx)

variable (G : Texture)

/-- a message to be delivered, as text (`WasmMsg::Execute`, `MsgExecuteContract`) -/
structure TextPending where
  sender : Addr
  target : Addr
  funds : List Registry.Coin
  text : Str
  deriving DecidableEq

/-- `cosmwasm_std::from_slice` in the entry point `execute` of a contract -/
def readFor (p : Party) (text : Str) : Option Msg := (fromStr G.finite text).bind (readAs G.L G.T p)

/-- `cosmwasm_std::to_binary` -/
def write (m : Msg) : Str := (jsonOf G.T G.u m).render

/-- a message as the contract it is for reads it -/
def receive (w : World) (q : TextPending) : Option Pending :=
  match w q.target with
  | none => none
  | some s => (readFor G (party s) q.text).map (fun m => ⟨q.sender, q.target, q.funds, m⟩)

/-- what a contract sends -/
def sent (e : Entry) : List TextPending :=
  e.act.outs.map (fun o => ⟨e.p.target, o.1, [], write G o.2⟩)

/-- `multisig/src/contract.rs:130-132` (`set_data(to_binary(&session_id))`), read by
`multisig-prover/src/reply.rs:11-21` -/
def replyData (d : Option Nat) : Option Nat :=
  d.bind (fun n => (fromStr G.finite (jsonUint n).render).bind (asUint u64Max))

/-- one message is delivered (as `Chain.deliver`) -/
def deliverText (P : Params) (b : Block) (w : World) (q : TextPending) :
    Except Unit (World × List Entry × List TextPending) :=
  match receive G w q with
  | none => .error ()
  | some p =>
    match w p.target with
    | some (.prover s sv kt) =>
      match p.msg with
      | .prover m =>
        match Prover.handle P.X s (proverEnvText G P w b s.config sv kt) m with
        | .error _ => .error ()
        | .ok (_, out) =>
          match receive G w ⟨p.target, s.config.multisig, [], write G (.multisig out.toMultisig)⟩ with
          | none => .error ()
          | some r =>
            match callText G P b w r none with
            | .ok (ms, .multisig mc mr) =>
              match callText G P b w p (some (replyData G mr.data)) with
              | .error _ => .error ()
              | .ok (s', a) =>
                .ok ((w.set p.target s').set r.target ms, [⟨p, a⟩, ⟨r, .multisig mc mr⟩],
                  sent G ⟨r, .multisig mc mr⟩)
            | _ => .error ()
      | _ => .error ()
    | _ =>
      match callText G P b w p none with
      | .error _ => .error ()
      | .ok (s', a) => .ok (w.set p.target s', [⟨p, a⟩], sent G ⟨p, a⟩)

/-- messages are delivered one after the other (as `Chain.run`) -/
def runText (P : Params) (b : Block) (accepts : Addr → Bool) :
    Nat → World → List TextPending → Except Unit (World × List Entry)
  | _, w, [] => .ok (w, [])
  | 0, _, _ :: _ => .error ()
  | n + 1, w, q :: rest =>
    if (w q.target).isNone ∧ accepts q.target = true then runText P b accepts n w rest
    else
      match deliverText G P b w q with
      | .error _ => .error ()
      | .ok (w', es, out) =>
        match runText P b accepts n w' (out ++ rest) with
        | .error _ => .error ()
        | .ok (w'', es') => .ok (w'', es ++ es')

/-- a transaction with messages as text -/
structure TextTx where
  sender : Addr
  msgs : List (Addr × List Registry.Coin × Str)
  block : Block
  accepts : Addr → Bool
  gas : Nat

/-- contracts do not send transactions (as `Chain.exec`) -/
def execText (P : Params) (w : World) (tx : TextTx) : Except Unit (World × List Entry) :=
  if (w tx.sender).isSome then .error ()
  else runText G P tx.block tx.accepts tx.gas w (tx.msgs.map (fun m => ⟨tx.sender, m.1, m.2.1, m.2.2⟩))

end Amp.Wire
