import Verif.Wire.LogMultisig
import Verif.Wire.HashProps
import Verif.Chain.RelayLemmas
import Verif.Chain.RecordLemmas
import Verif.Chain.JoinLemmas

/-!
# C107: who reads the events of the contracts knows what they answer

Contracts as in C95: messages, answers and events are text.  The observer starts with the first block and sees all events.
-/

namespace Amp.Wire

open Amp.Encoding (Bytes)
open Amp.Router (ChainName CCId Message Lowering)
open Amp.Multisig (PublicKey Signature Session KeyType WorkerSet)
open Amp.Ampd (readAll)
open Amp.Chain (Entry Setup Params)

variable {G : Texture} {P : Params} {setup : Setup}

/-- the events of the router are read back -/
theorem router_heard (hG : Sound G) (hX : ∀ b, IsBytes (P.X.keccak b)) (hs : SetupTyped G.L setup) (ts : List TextTx)
    (hb : ∀ t ∈ ts, InRange t) {R : Addr} {rc : Router.Config} (hR : setup R = some (.router rc)) :
    watchRouter G.T R rc.nexusGateway (eventStream G.T (textLog G P setup ts)) =
      Chain.Seen.all rc.nexusGateway (Chain.routerEvents R (textLog G P setup ts)) := by
  have hd := C95_delivered (P := P) hG hX hs ts hb
  obtain ⟨_, hl⟩ := C95_history (P := P) hG hX hs ts hb
  unfold watchRouter
  rw [router_news hG.faithful]
  intro e he ht
  have hi := Chain.inv P setup (ts.map (meaning G setup))
  rw [← hl] at hi
  exact router_events_fit (L := G.L) hi hR hd e he ht

theorem askGateway_outbox {s : Gateway.State} {w : Chain.World} {g : Addr} (hw : w g = some (.gateway s)) (ids : List CCId) :
    Chain.askGateway w g ids = match readAll s.outgoing ids with
      | some ms => .ok ms
      | none => .error .std := by
  have key : ∀ ids : List CCId, Gateway.getMessages s ids = match readAll s.outgoing ids with
      | some ms => .ok ms
      | none => .error .loadOutgoingMessage := by
    intro ids
    unfold Gateway.getMessages
    induction ids with
    | nil => rfl
    | cons a t ih =>
      simp only [mapE, readAll, Gateway.loadOutgoing]
      cases s.outgoing a with
      | none => rfl
      | some m =>
        simp only [ih]
        cases readAll s.outgoing t <;> rfl
  unfold Chain.askGateway
  rw [hw]
  simp only [key]
  cases readAll s.outgoing ids <;> rfl

/-- C107: what a gateway answers to `GetMessages`, and whether it answers at all, is what somebody can tell who has read the
events of the router: the messages routed to a chain while this was the gateway of the chain (or to no registered chain, for
the nexus gateway), the last one for every id. -/
theorem C107_gateway (hG : Sound G) (hX : ∀ b, IsBytes (P.X.keccak b)) (hs : SetupTyped G.L setup) (ts : List TextTx)
    (hb : ∀ t ∈ ts, InRange t) (R : Addr) (rc : Router.Config) (hR : setup R = some (.router rc))
    (hnx : Chain.Leaf setup R rc.nexusGateway) (hcl : Chain.Closed setup R (textLog G P setup ts))
    (g : Addr) (gc : Gateway.Config) (hg : setup g = some (.gateway gc)) (hr : gc.router = R) (ids : List CCId) :
    Chain.askGateway (textWorldAfter G P setup ts) g ids =
      match readAll ((watchRouter G.T R rc.nexusGateway (eventStream G.T (textLog G P setup ts))).outbox g) ids with
      | some ms => .ok ms
      | none => .error .std := by
  rw [router_heard hG hX hs ts hb hR]
  obtain ⟨hw, hl⟩ := C95_history (P := P) hG hX hs ts hb
  rw [hl] at hcl
  have h := Chain.relay_inv P setup R hR hnx (ts.map (meaning G setup)) hcl
  rw [hw, hl]
  have hst := h.inv.gateway_state hg
  have ho := h.outbox g _ hst (by rw [Gateway.config_reachable]; exact hr)
  rw [askGateway_outbox hst, ← ho]
  rfl

/-- C107: the gateway of every chain is what the events of the router told last. -/
theorem C107_router (hG : Sound G) (hX : ∀ b, IsBytes (P.X.keccak b)) (hs : SetupTyped G.L setup) (ts : List TextTx)
    (hb : ∀ t ∈ ts, InRange t) (R : Addr) (rc : Router.Config) (hR : setup R = some (.router rc))
    (hnx : Chain.Leaf setup R rc.nexusGateway) (hcl : Chain.Closed setup R (textLog G P setup ts)) (s : Router.State)
    (hst : textWorldAfter G P setup ts R = some (.router s)) (n : ChainName) :
    (Router.getChainInfo s n).map (·.gateway) =
      (watchRouter G.T R rc.nexusGateway (eventStream G.T (textLog G P setup ts))).gateways n := by
  rw [router_heard hG hX hs ts hb hR]
  obtain ⟨hw, hl⟩ := C95_history (P := P) hG hX hs ts hb
  rw [hl] at hcl ⊢
  rw [hw] at hst
  exact ((Chain.relay_inv P setup R hR hnx (ts.map (meaning G setup)) hcl).table s hst).2 n

/-! ### A multisig contract -/

theorem call_multisig_height {b : Chain.Block} {w : Chain.World} {p : Chain.Pending} {reply : Option (Option Nat)}
    {s' : Chain.Store} {c : Multisig.Call} {r : Multisig.Resp} (h : Chain.call P b w p reply = .ok (s', .multisig c r)) :
    c.height = b.height ∧ p.msg = .multisig c.msg := by
  unfold Chain.call at h
  split at h
  · simp at h
  all_goals
    split at h
    · first
      | (split at h
         · simp at h
         · rename_i hm _ _ _ _
           simp only [Except.ok.injEq, Prod.mk.injEq, Chain.Act.multisig.injEq] at h
           obtain ⟨_, rfl, _⟩ := h
           exact ⟨rfl, hm⟩)
      | (simp only at h
         split at h <;> simp at h)
      | (split at h <;> simp at h)
    · simp at h

/-- the events of a multisig contract are read back -/
theorem multisig_heard (hG : Sound G) (hX : ∀ b, IsBytes (P.X.keccak b)) (hs : SetupTyped G.L setup) (ts : List TextTx)
    (hb : ∀ t ∈ ts, InRange t) {M : Addr} {mc : Multisig.Config} (hM : setup M = some (.multisig mc)) {s : Multisig.State}
    (hst : textWorldAfter G P setup ts M = some (.multisig s)) :
    ∃ log, HInv (Prover.workerSetId P.X) log s ∧
      watchMultisig G.finite G.T M (eventStream G.T (textLog G P setup ts)) = heard log ∧
      ∀ x ∈ log, ∃ e ∈ textLog G P setup ts, e.p.target = M ∧ e.p.msg = .multisig x.1.msg := by
  have hd := C95_delivered (P := P) hG hX hs ts hb
  obtain ⟨hw, hl⟩ := C95_history (P := P) hG hX hs ts hb
  rw [hl] at hd
  rw [hw] at hst
  rw [hl]
  have hi := Chain.inv P setup (ts.map (meaning G setup))
  have hent := Chain.log_entries P setup (ts.map (meaning G setup))
  generalize Chain.log P setup (ts.map (meaning G setup)) = l at hd hi hent ⊢
  have hacts : Chain.actsAt M l = (outs (Multisig.exec P.C (Prover.workerSetId P.X)) (Multisig.init mc)
      (Chain.multisigCalls M l)).map (fun e => .multisig e.1 e.2) := hi.acts M _ hM
  have hs' := hi.multisig_state hM
  rw [hst] at hs'
  simp only [Option.some.injEq, Chain.Store.multisig.injEq] at hs'
  have hfrom : ∀ x ∈ outs (Multisig.exec P.C (Prover.workerSetId P.X)) (Multisig.init mc) (Chain.multisigCalls M l),
      ∃ e ∈ l, e.p.target = M ∧ e.act = .multisig x.1 x.2 ∧ e.p.msg = .multisig x.1.msg ∧ CallTyped G.L x.1 := by
    intro x hx
    have : Chain.Act.multisig x.1 x.2 ∈ Chain.actsAt M l := by
      rw [hacts]
      exact List.mem_map.mpr ⟨x, hx, rfl⟩
    obtain ⟨e, he, ht, ha⟩ := Chain.mem_actsAt this
    obtain ⟨tx, htx, w1, reply, s1, hc⟩ := hent e he
    rw [ha] at hc
    obtain ⟨h1, h2⟩ := call_multisig_height hc
    obtain ⟨t, ht', rfl⟩ := List.mem_map.mp htx
    refine ⟨e, he, ht, ha, h2, ?_, ?_⟩
    · rw [← h2]; exact hd e he
    · rw [h1]; exact (hb t ht').height
  have hinv := hinv (L := G.L) P.C (Prover.workerSetId P.X) mc (Chain.multisigCalls M l)
    (fun x hx => by obtain ⟨_, _, _, _, _, h⟩ := hfrom x hx; exact h)
  refine ⟨_, by rw [hs']; exact hinv, ?_, ?_⟩
  · unfold watchMultisig heard
    rw [multisig_news hG.faithful, hacts, List.flatMap_map]
    · rfl
    · intro e he ht
      have : e.act ∈ Chain.actsAt M l := ht ▸ Chain.actsAt_mem he
      rw [hacts] at this
      obtain ⟨x, hx, hxe⟩ := List.mem_map.mp this
      exact ⟨x.1, x.2, hxe.symm, hinv.fits x hx⟩
  · intro x hx
    obtain ⟨e, h1, h2, _, h3, _⟩ := hfrom x hx
    exact ⟨e, h1, h2, h3⟩

/-- C107: what a multisig contract answers to `GetPublicKey` is the last key of the type that an event told of. -/
theorem C107_key (hG : Sound G) (hX : ∀ b, IsBytes (P.X.keccak b)) (hs : SetupTyped G.L setup) (ts : List TextTx)
    (hb : ∀ t ∈ ts, InRange t) (M : Addr) (mc : Multisig.Config) (hM : setup M = some (.multisig mc)) (s : Multisig.State)
    (hst : textWorldAfter G P setup ts M = some (.multisig s)) (k : Known)
    (hk : k = watchMultisig G.finite G.T M (eventStream G.T (textLog G P setup ts))) (a : Addr) (kt : KeyType) :
    (∀ pk, Multisig.getPublicKey s a kt = .ok pk ↔ pk.keyType = kt ∧ k.keys (a, kt) = some pk.bytes) ∧
    (Multisig.getPublicKey s a kt = .error .std ↔ k.keys (a, kt) = none) := by
  obtain ⟨log, hi, hlog, _⟩ := multisig_heard (P := P) hG hX hs ts hb hM hst
  rw [hk, hlog, hi.keys]
  unfold Multisig.getPublicKey
  cases hp : s.pubKeys (a, kt) with
  | none => simp
  | some b =>
    have hl := hi.lengths a kt b hp
    have hex : ∃ k0, PublicKey.tryFrom kt b = .ok k0 := by
      cases kt with
      | ecdsa => exact ⟨.ecdsa b, Multisig.key_ok.mpr ⟨hl, rfl, rfl⟩⟩
      | ed25519 => exact ⟨.ed25519 b, Multisig.key_ok.mpr ⟨hl, rfl, rfl⟩⟩
    obtain ⟨k0, hk0⟩ := hex
    obtain ⟨_, g1, g2⟩ := Multisig.key_ok.mp hk0
    simp only [hk0, Except.ok.injEq, Option.some.injEq, reduceCtorEq, iff_self, and_true]
    intro k
    constructor
    · rintro rfl; exact ⟨g1, g2.symm⟩
    · rintro ⟨e1, e2⟩
      have := Multisig.key_ok.mpr ⟨hl, e1, e2.symm⟩
      rw [hk0] at this
      simpa using this

/-- C107: a multisig contract refuses to start a signing session as unauthorized exactly for those whose authorization no event
told of, or an event told was withdrawn since. -/
theorem C107_caller (hG : Sound G) (hX : ∀ b, IsBytes (P.X.keccak b)) (hs : SetupTyped G.L setup) (ts : List TextTx)
    (hb : ∀ t ∈ ts, InRange t) (M : Addr) (mc : Multisig.Config) (hM : setup M = some (.multisig mc)) (s : Multisig.State)
    (hst : textWorldAfter G P setup ts M = some (.multisig s)) (a : Addr) (height : Nat) (wid : Str) (msg : Bytes)
    (chain : Str) (ok : Bool) :
    Multisig.exec P.C (Prover.workerSetId P.X) s ⟨a, height, .startSigningSession wid msg chain ok⟩ = .error .unauthorized ↔
      (watchMultisig G.finite G.T M (eventStream G.T (textLog G P setup ts))).callers a = none := by
  obtain ⟨log, hi, hk, _⟩ := multisig_heard (P := P) hG hX hs ts hb hM hst
  rw [hk, hi.callers]
  simp only [Multisig.exec, Multisig.startSigningSession, Multisig.msgToSign]
  cases s.authorized a with
  | none => simp
  | some u =>
    simp only [reduceCtorEq, iff_false]
    have hm : ∀ e, (if msg.length ≠ 32 then Except.error Multisig.Err.invalidMessageFormat else .ok msg) = .error e →
        e ≠ .unauthorized := by
      intro e h
      split at h <;> simp at h
      rw [← h]; simp
    split
    · simp
    · split
      · rename_i e he
        simpa using hm e he
      · split
        · simp
        · split <;> simp

/-- C107: what a multisig contract answers to `GetMultisig` is what the events told of the session and its signatures, together
with its worker set, which the contract hands out under the id in the event; unless two different worker sets were registered
whose texts have the same Keccak-256 hash. -/
theorem C107_multisig (hG : Sound G) (hH : Hashed G.T P) (hs : SetupTyped G.L setup) (ts : List TextTx)
    (hb : ∀ t ∈ ts, InRange t) (M : Addr) (mc : Multisig.Config) (hM : setup M = some (.multisig mc)) (s : Multisig.State)
    (hst : textWorldAfter G P setup ts M = some (.multisig s)) (k : Known)
    (hk : k = watchMultisig G.finite G.T M (eventStream G.T (textLog G P setup ts))) :
    (∀ id, Multisig.getMultisig s id = match k.sessions id with
      | none => none
      | some se => (Multisig.getWorkerSet s se.workerSetId).map (fun ws =>
          ⟨se.state, ws.threshold, ws.signers.map (fun e => (e.2, (k.signatures id).get? e.1))⟩)) ∨
      ∃ ws ws', RegisteredAt (textLog G P setup ts) M ws ∧ RegisteredAt (textLog G P setup ts) M ws' ∧ ws ≠ ws' ∧
        Collide P (setBytes G.T ws) (setBytes G.T ws') := by
  obtain ⟨log, hi, hlog, hfrom⟩ := multisig_heard (P := P) hG hH.bytes hs ts hb hM hst
  refine (C97_registered hG hH hs ts hb M).imp_left (fun hd id => ?_)
  have hap : SetsApart (Prover.workerSetId P.X) log := by
    intro x hx x' hx' r r' ws ws' h1 h2 h3 h4 h5
    obtain ⟨e, he, ht, hm⟩ := hfrom x hx
    obtain ⟨e', he', ht', hm'⟩ := hfrom x' hx'
    exact hd e he e' he' ht ht' r r' ws ws' (by rw [hm, h1]) (by rw [hm', h2]) h3 h4 h5
  rw [hk, hlog, hi.sessions, (hi.rest hap).2]
  unfold Multisig.getMultisig Multisig.getWorkerSet
  cases hse : s.sessions id with
  | none => rfl
  | some se =>
    dsimp only
    rw [(hi.ids id se hse).1]
    cases s.workerSets se.workerSetId <;> rfl

end Amp.Wire
