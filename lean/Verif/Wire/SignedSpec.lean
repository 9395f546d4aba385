import Verif.Wire.CarrySpec

/-!
# Specification for C114: signatures, in terms of texts
-/

namespace Amp.Wire

open Amp.Router (ChainName)

variable (G : Texture)

/-- Worker `a` reads the raw event of a session of the multisig contract at `M` with its daemon, and hands `msg` for `M` to its queue;
`curve` parses public keys, and the key manager that the daemon asks returns bytes. -/
def Signs (curve : Multisig.PublicKey → Option Encoding.Bytes) (M : Addr) (sid : Nat) (wid : Str)
    (keys : List (Addr × Multisig.PublicKey)) (digest : Encoding.Bytes) (chain : ChainName) (a : Addr) (msg : Ampd.TxMsg) : Prop :=
  ∃ e E, decodeEvent G.finite (publishMultisig G.T M (.signingStarted sid wid keys digest chain)) = some e ∧
    (∀ x y z b, E.sign x y z = some b → IsBytes b) ∧
    ⟨a, M, msg⟩ ∈ (Ampd.Signing.handle (Signing.deserSigning G.T curve) ⟨a, M⟩ E (.abci e)).sent

end Amp.Wire
