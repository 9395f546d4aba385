import Verif.Wire.CarrySpec
import Verif.Chain.RotationProps

/-!
# Specification for C115: rotating worker sets, in terms of texts and bytes
-/

namespace Amp.Wire

open Amp.Chain (Params Entry)
open Amp.Std (Operators)

variable (G : Texture)

/-- In the log, the last request about the worker set that its verifier at `V` knows by the hash of `o` was about `o`; it opened the poll
`pm` for the workers `ws`, about event `n` of transaction `tx`. -/
def LastSetPoll (P : Params) (l : List Entry) (V : Addr) (o : Operators) (ws : List Registry.Worker) (tx : Str) (n : Nat)
    (pm : VV.PollMeta) : Prop :=
  ∃ l₁ e l₂ c r mid, l = l₁ ++ e :: l₂ ∧ e.p.target = V ∧ e.act = .verifier c r ∧ c.msg = .verifyWorkerSet mid o ∧
    c.workers = some ws ∧ r.event = some (.workerSetPollStarted tx n o pm) ∧
    ∀ x ∈ l₂, x.p.target = V → ∀ mid' o', x.p.msg = .verifier (.verifyWorkerSet mid' o') → P.H.ops o' ≠ P.H.ops o

/-- The chain shows, at the configured gateway, that control was handed over to these operators: in the bytes of a log, or in the JSON
of an event. -/
def TextSource.ShowsHandover (s : TextSource) (vc : VV.Config) (o : Operators) : Prop :=
  match s with
  | .evm K _ _ onChain => ∃ id tx i h gateway r,
      VV.parseMessageId id = some (tx, i) ∧ (reader G.finite G.T).hash tx = some h ∧
      ((reader G.finite G.T).attr vc.sourceGateway).bind (reader G.finite G.T).addr = some gateway ∧ onChain r ∧
      Ampd.Evm.ShowsTransfer K.keccak gateway r ⟨h, i, o.weights, o.threshold⟩
  | .sui _ onChain => ∃ id tx i h gateway b,
      VV.parseMessageId id = some (tx, i) ∧ (reader G.finite G.T).digest tx = some h ∧
      ((reader G.finite G.T).attr vc.sourceGateway).bind (reader G.finite G.T).suiAddr = some gateway ∧ onChain b ∧
      ShowsSuiTransfer gateway b ⟨h, i, o.weights, o.threshold⟩

end Amp.Wire
