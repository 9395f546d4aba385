import Verif.Wire.RequestProps
import Verif.Chain.AskProps

/-!
# C114, continued: the text of a request to verify opens a poll
-/

namespace Amp.Wire

open Amp.Chain (Params Entry)
open Amp.Router (Message)

variable {G : Texture} {P : Params}

/-- the verifier at `V` has `m` neither verified nor in a poll -/
def Unverified (P : Params) (w : Chain.World) (V : Addr) (m : Message) : Prop :=
  ∃ s, w V = some (.verifier s) ∧ (VV.msgStatus P.H s m = .ok .notVerified ∨ VV.msgStatus P.H s m = .ok .failedToVerify)

/-- C114, asking: whoever sends the gateway of the source chain a text that asks to verify messages with distinct and readable ids
opens a poll about every one of them that is not verified and in no poll, among the active workers of that moment; the verifier
writes the raw event of the poll. -/
theorem C114_asked (hG : Sound G) (hX : ∀ b, IsBytes (P.X.keccak b)) (ts : List TextStep) (t : TextTx)
    (hb : ∀ s ∈ ts ++ [.tx t], StepInRange s) (ha : TextApart G (ts ++ [.tx t])) (g : Addr) (gc : Gateway.Config)
    (hg : textSetup G ts g = some (.gateway gc)) (vc : VV.Config) (hV : textSetup G ts gc.verifier = some (.verifier vc))
    (hroom : (textDeployedLog G P ts).length < u64Max) (ms : List Message) (hnd : (ms.map (·.ccId)).Nodup)
    (hchain : ∀ m ∈ ms, m.ccId.chain = vc.sourceChain) (hids : ∀ m ∈ ms, ∃ cf, VV.confirmationOf m = .ok cf)
    (hlen : ms.length ≤ 2 ^ 32) (hask : (Chain.askVerifier P (textDeployedWorld G P ts) gc.verifier ms).isSome)
    (hinj : ∀ m ∈ ms, ∀ m' ∈ ms, m'.hash P.H.msg = m.hash P.H.msg → m' = m) (ws : List Registry.Worker)
    (hws : Chain.askWorkers (textDeployedWorld G P ts) vc.serviceRegistry vc.serviceName vc.sourceChain = some ws)
    (hne : ws ≠ []) (hsz : ws.length ≤ u256Max) (funds : List Registry.Coin) (text : Str) (hmsgs : t.msgs = [(g, funds, text)])
    (msg : Chain.Msg) (hread : readFor G .gateway text = some msg) (hmsg : msg.toGateway = some (.verifyMessages ms))
    (hgas : 2 ≤ t.gas) (hh : t.block.height + vc.blockExpiry ≤ u64Max)
    (hopen : ∃ m ∈ ms, Unverified P (textDeployedWorld G P ts) gc.verifier m)
    (l : List Entry) (hl : l = Chain.log P (textSetup G (ts ++ [.tx t])) (Chain.succeeded P (steps G (ts ++ [.tx t])))) :
    (∃ x, execText G P (textDeployedWorld G P ts) t = .ok x) ∧
    ∃ confs pm, pm.sourceChain = vc.sourceChain ∧ pm.sourceGateway = vc.sourceGateway ∧
      pm.confirmationHeight = vc.confirmationHeight ∧ pm.expiresAt = t.block.height + vc.blockExpiry ∧
      (∀ a, a ∈ pm.participants ↔ ∃ w ∈ ws, w.address = a) ∧
      publishVerifier G.T gc.verifier (.messagesPollStarted confs pm) ∈ eventStream G.T (textDeployedLog G P (ts ++ [.tx t])) ∧
      ∀ m ∈ ms, Unverified P (textDeployedWorld G P ts) gc.verifier m →
        ∃ cf ∈ confs, Chain.PollOpened P l gc.verifier vc m ws confs pm cf := by
  have hbt : ∀ s ∈ ts, StepInRange s := fun s hs => hb s (List.mem_append_left _ hs)
  have hat := textApart_prefix ha
  have hin : InRange t := hb (.tx t) (by simp)
  obtain ⟨w1, w2, -, -, hv⟩ := C105_history (P := P) hG hX ts hbt hat
  have hmeant : (meaning G (textSetup G ts) t).msgs = [(g, funds, msg)] := by
    unfold meaning
    rw [hmsgs]
    simp only [List.map_cons, List.map_nil]
    congr 3
    unfold meant
    rw [hg]
    change (match readFor G .gateway text with | some m => m | none => noise .gateway) = _
    rw [hread]
  have hs : textSetup G ts t.sender = none := by
    by_contra h
    refine (ha t (by simp) t.sender ?_).1 rfl
    cases hk : textSetup G ts t.sender with
    | none => exact absurd hk h
    | some k => rw [textSetup_mono ts _ hk]; simp
  have hstate := (Chain.inv P (textSetup G ts) (Chain.succeeded P (steps G ts))).verifier_state hV
  have hun : ∀ m, Unverified P (textDeployedWorld G P ts) gc.verifier m ↔
      (VV.msgStatus P.H (VV.stateAfter P.H vc (Chain.verifierCalls gc.verifier (Chain.log P (textSetup G ts)
          (Chain.succeeded P (steps G ts))))) m = .ok .notVerified ∨
        VV.msgStatus P.H (VV.stateAfter P.H vc (Chain.verifierCalls gc.verifier (Chain.log P (textSetup G ts)
          (Chain.succeeded P (steps G ts))))) m = .ok .failedToVerify) := by
    intro m
    unfold Unverified
    rw [w1, hstate]
    constructor
    · rintro ⟨s, h1, h2⟩
      simp only [Option.some.injEq, Chain.Store.verifier.injEq] at h1
      rw [h1]
      exact h2
    · intro h
      exact ⟨_, rfl, h⟩
  rw [w1] at hask hws
  obtain ⟨⟨x, hx⟩, confs, pm, h1, h2, h3, h4, h5, h6⟩ := Chain.C89_asked P (textSetup G ts) (Chain.succeeded P (steps G ts)) g gc hg vc
    hV (hv _ _ hV) (by
      have := congrArg List.length w2
      simp only [List.length_map] at this
      omega) ms hnd hchain hids hlen hask hinj ws hws hne hsz (meaning G (textSetup G ts) t) funds msg hmeant hmsg hs hgas hh
    (by obtain ⟨m, hm, h⟩ := hopen; exact ⟨m, hm, (hun m).mp h⟩)
  obtain ⟨hset, hsucc, v1, v2⟩ := deployed_snoc hG hX ts t hb ha hx
  obtain ⟨-, w3, -, -, -⟩ := C105_history (P := P) hG hX _ hb ha
  rw [hset, hsucc] at hl w3
  subst hl
  refine ⟨⟨x, (exec_after hG hX ts hbt hat t hin).mpr hx⟩, confs, pm, h1, h2, h3, h4, h5, ?_, ?_⟩
  · obtain ⟨m, hm, h⟩ := hopen
    obtain ⟨cf, -, l₁, e, l₂, c, r, ms', hl', ht, hact, -, -, -, -, -, hev, -⟩ := h6 m hm ((hun m).mp h)
    rw [eventStream_blind w3, hl']
    unfold eventStream
    refine List.mem_flatMap.mpr ⟨e, by simp, ?_⟩
    rw [hact, ht]
    simp [actEvents, hev]
  · intro m hm h
    exact h6 m hm ((hun m).mp h)

end Amp.Wire
