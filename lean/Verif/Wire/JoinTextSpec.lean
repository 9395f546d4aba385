import Verif.Wire.CarrySpec
import Verif.Chain.JoinProps

/-!
# Specification for C116: what a command of the daemon sends, as text
-/

namespace Amp.Wire

/-- The transaction consists of what a command sent: `ampd/src/commands/bond_worker.rs:33-42`, `declare_chain_support.rs:31-40`,
`register_public_key.rs:30-41` write the message with `serde_json::to_vec`. -/
structure CarriesText (G : Texture) (t : TextTx) (c : Ampd.CmdTx) : Prop where
  sender : t.sender = c.sender
  msgs : t.msgs = [(c.contract, c.funds, write G (Chain.cmdMsg c.msg))]
  gas : 1 ≤ t.gas

end Amp.Wire
