import Verif.Wire.EndToEndSpec
import Verif.Wire.DeployTextProps
import Verif.Wire.DaemonMsgs
import Verif.Wire.SuiEventsProps
import Verif.Chain.OriginLemmas

/-!
# Helper lemmas for C113
-/

namespace Amp.Wire

open Amp.Chain (Params Setup Entry Tx)

variable {G : Texture} {P : Params}

/-- the texts whose transactions succeeded -/
theorem succeeded_texts (ts : List TextStep) :
    ∃ xs : List TextTx, Chain.succeeded P (steps G ts) = xs.map (meaning G (textSetup G ts)) ∧ ∀ x ∈ xs, .tx x ∈ ts := by
  have key : ∀ t ∈ Chain.succeeded P (steps G ts), ∃ x, .tx x ∈ ts ∧ t = meaning G (textSetup G ts) x := by
    intro t ht
    obtain ⟨y, hy, he⟩ := List.mem_filterMap.mp ht
    obtain ⟨cs₁, cs₂, -, hcs, -⟩ := outs_mem _ hy
    have hm : y.1 ∈ steps G ts := by rw [hcs]; simp
    obtain ⟨s, hs, hsm⟩ := List.mem_filterMap.mp hm
    cases s with
    | tx x =>
      simp only [stepMeaning, Option.some.injEq] at hsm
      rw [← hsm] at he
      simp only [Chain.Step.tx?, Option.some.injEq] at he
      exact ⟨x, hs, he.symm⟩
    | found a p h text =>
      simp only [stepMeaning, founding, Option.map_eq_some_iff] at hsm
      obtain ⟨o, -, hsm⟩ := hsm
      rw [← hsm] at he
      simp [Chain.Step.tx?] at he
  generalize Chain.succeeded P (steps G ts) = l at key
  induction l with
  | nil => exact ⟨[], rfl, by simp⟩
  | cons t r ih =>
    obtain ⟨xs, h1, h2⟩ := ih (fun u hu => key u (List.mem_cons_of_mem _ hu))
    obtain ⟨x, hx, e⟩ := key t (List.mem_cons_self ..)
    refine ⟨x :: xs, by rw [List.map_cons, ← e, ← h1], ?_⟩
    intro y hy
    rcases List.mem_cons.mp hy with rfl | hy
    · exact hx
    · exact h2 y hy

/-- the events of a chain do not depend on what the calls could have been told -/
theorem eventStream_blind {l l' : List Entry} (h : l.map Entry.blind = l'.map Entry.blind) (T : Texts) :
    eventStream T l = eventStream T l' := by
  have key : ∀ l : List Entry, eventStream T l = eventStream T (l.map Entry.blind) := by
    intro l
    unfold eventStream
    rw [List.flatMap_map]
    congr 1
    funext e
    unfold Entry.blind
    cases e.act <;> rfl
  rw [key l, h, ← key l']

/-- whatever is delivered is of its type -/
theorem deployed_typed (hG : Sound G) (hX : ∀ b, IsBytes (P.X.keccak b)) (ts : List TextStep)
    (hb : ∀ s ∈ ts, StepInRange s) (ha : TextApart G ts) (e : Entry)
    (he : e ∈ Chain.log P (textSetup G ts) (Chain.succeeded P (steps G ts))) : Typed G.L e.p.msg := by
  obtain ⟨xs, h1, h2⟩ := succeeded_texts (G := G) (P := P) ts
  have hs := (C105_history (P := P) hG hX ts hb ha).2.2.1
  have hr : ∀ x ∈ xs, InRange x := fun x hx => hb _ (h2 x hx)
  rw [h1, ← (C95_history (P := P) hG hX hs xs hr).2] at he
  exact C95_delivered hG hX hs xs hr e he

theorem founded_height {setup : Setup} (hf : Founded G setup) {a : Addr} {c : VV.Config} (h : setup a = some (.verifier c)) :
    c.confirmationHeight ≤ u64Max := by
  obtain ⟨p, text, o, hh, ho, -, e⟩ := hf a _ h
  have ht := (C104_typed p text o ho).1
  cases o <;> simp only [Order.kind, Chain.Kind.verifier.injEq, reduceCtorEq] at e
  subst e
  exact ht.1.2.2.2.2.1

/-- calls of verifiers are calls of contracts that are verifiers -/
theorem verifier_of_act {setup : Setup} {l : List Entry} {w : Chain.World} (hi : Chain.Inv P setup l w) {e : Entry} (he : e ∈ l)
    {c : VV.Call} {r : VV.Resp} (h : e.act = .verifier c r) : ∃ cfg, setup e.p.target = some (.verifier cfg) := by
  obtain ⟨l₁, l₂, hl⟩ := List.append_of_mem he
  obtain ⟨-, b, reply, s', hc⟩ := hi.genuine l₁ e l₂ hl
  have hm := Chain.actsAt_mem he
  rw [h] at hm
  cases hk : setup e.p.target with
  | none => simp [Chain.call, Chain.worldOf, hk] at hc
  | some k =>
    have ha := hi.acts _ _ hk
    cases k with
    | verifier cfg => exact ⟨cfg, rfl⟩
    | _ =>
      simp only [Chain.Matches] at ha
      rw [ha] at hm
      simp at hm

/-- the events of verifiers fit their types -/
theorem verifier_event_fits (hG : Sound G) (hX : ∀ b, IsBytes (P.X.keccak b)) (ts : List TextStep)
    (hb : ∀ s ∈ ts, StepInRange s) (ha : TextApart G ts) (e : Entry)
    (he : e ∈ Chain.log P (textSetup G ts) (Chain.succeeded P (steps G ts))) {c : VV.Call} {r : VV.Resp}
    (h : e.act = .verifier c r) {ev : VV.Event} (hev : r.event = some ev) : EventFits ev := by
  have hi := Chain.inv P (textSetup G ts) (Chain.succeeded P (steps G ts))
  obtain ⟨cfg, hk⟩ := verifier_of_act hi he h
  obtain ⟨-, -, -, -, hv⟩ := C105_history (P := P) hG hX ts hb ha
  have hh := founded_height (C105_text (P := P) hG hX ts hb).2.2.2 hk
  have hm := Chain.actsAt_mem he
  have hact := hi.acts _ _ hk
  simp only [Chain.Matches] at hact
  rw [hact, h] at hm
  obtain ⟨y, hy, e1⟩ := List.mem_map.mp hm
  simp only [Chain.Act.verifier.injEq] at e1
  refine C94_verifier_fits P.H cfg hh _ ?_ y hy ev (by rw [e1.2]; exact hev)
  intro d hd
  obtain ⟨x, hx, hxd⟩ := List.mem_filterMap.mp hd
  obtain ⟨en, hen, ht, rfl⟩ := Chain.mem_actsAt hx
  obtain ⟨l₁, l₂, hl⟩ := List.append_of_mem hen
  obtain ⟨c', r', a1, -, a3, -⟩ := hi.verifier_call hl (hv _ _ hk) (by rw [ht]; exact hk)
  rw [a1] at hxd
  simp only [Chain.Act.verifierCall?, Option.some.injEq] at hxd
  subst hxd
  have hty := deployed_typed hG hX ts hb ha en hen
  rw [a3] at hty
  refine ⟨fun ms hms m hm => ?_, fun mid o hmo => ?_⟩
  · rw [hms] at hty; exact (hty m hm).payloadHash
  · rw [hmo] at hty; exact hty.2

theorem notPoll {k : Str} (h : decide (k = "wasm-messages_poll_started".toList) = false ∧
    decide (k = "wasm-worker_set_poll_started".toList) = false) :
    ¬ (k = "wasm-messages_poll_started".toList ∨ k = "wasm-worker_set_poll_started".toList) :=
  fun hk => hk.elim (of_decide_eq_false h.1) (of_decide_eq_false h.2)

/-- only verifiers emit events that start polls -/
theorem poll_event {T : Texts} {a : Addr} {act : Chain.Act} {raw : RawEvent} (h : raw ∈ actEvents T a act)
    (hk : raw.kind = "wasm-messages_poll_started".toList ∨ raw.kind = "wasm-worker_set_poll_started".toList) :
    ∃ c r ev, act = .verifier c r ∧ r.event = some ev ∧ raw = publishVerifier T a ev := by
  cases act with
  | verifier c r =>
    obtain ⟨ev, hev, e⟩ := List.mem_map.mp h
    exact ⟨c, r, ev, rfl, Option.mem_toList.mp hev, e.symm⟩
  | gateway c r =>
    obtain ⟨ev, hev, rfl⟩ := List.mem_map.mp h
    exfalso
    cases ev with
    | messageRouted m => exact notPoll (k := "wasm-message_routed".toList) (by decide) hk
    | messageRoutingFailed m => exact notPoll (k := "wasm-message_routing_failed".toList) (by decide) hk
  | router c r =>
    obtain ⟨ev, hev, rfl⟩ := List.mem_map.mp h
    exfalso
    cases ev with
    | chainRegistered n g => exact notPoll (k := "wasm-chain_registered".toList) (by decide) hk
    | gatewayUpgraded n g => exact notPoll (k := "wasm-gateway_upgraded".toList) (by decide) hk
    | chainFrozen n => exact notPoll (k := "wasm-chain_frozen".toList) (by decide) hk
    | messageRouted m => exact notPoll (k := "wasm-message_routed".toList) (by decide) hk
  | multisig c r =>
    obtain ⟨ev, hev, rfl⟩ := List.mem_map.mp h
    exfalso
    cases ev with
    | signingStarted i w k m c => exact notPoll (k := "wasm-signing_started".toList) (by decide) hk
    | signatureSubmitted i p s => exact notPoll (k := "wasm-signature_submitted".toList) (by decide) hk
    | signingCompleted i h => exact notPoll (k := "wasm-signing_completed".toList) (by decide) hk
    | publicKeyRegistered w k => exact notPoll (k := "wasm-public_key_registered".toList) (by decide) hk
    | callerAuthorized a => exact notPoll (k := "wasm-caller_authorized".toList) (by decide) hk
    | callerUnauthorized a => exact notPoll (k := "wasm-caller_unauthorized".toList) (by decide) hk
  | prover m c r =>
    obtain ⟨ev, hev, rfl⟩ := List.mem_map.mp h
    exact (notPoll (k := "wasm-proof_under_construction".toList) (by decide) hk).elim
  | nexus c r | registry c r | rewards c r => simp [actEvents] at h

theorem decodeEvent_type {finite : Str → Bool} {raw : RawEvent} {e : Ampd.Abci (List (Str × Json))}
    (h : decodeEvent finite raw = some e) : e.type = raw.kind := by
  unfold decodeEvent at h
  split at h
  · simp at h
  · simp only [Option.some.injEq] at h; rw [← h]

/-! ### A vote of the daemon is about its own verifier, and in range -/

theorem evm_messages_own {D : Type} {L : Router.Lowering} {R : Ampd.Reader} {dec : D → Option Ampd.Evm.GatewayEvent}
    {H : Ampd.Evm.Handler} {E : Ampd.Evm.Env D} {a : Addr} {ev : VV.Event} {t : Ampd.ExecTx}
    (h : t ∈ (Ampd.Evm.handleMessages L dec (Ampd.Evm.readMessagesPoll L R) H E (.abci (Ampd.announced a ev))).sent)
    (hf : EventFits ev) : a = H.votingVerifier ∧ ∃ id votes, t.msg = .vote id votes ∧ id ≤ u64Max := by
  obtain ⟨p, f, ⟨⟨ab, hab, _, hdes⟩, hc, _⟩, _, rfl⟩ := Ampd.Evm.handleMessages_sent h
  simp only [Ampd.Event.abci.injEq] at hab
  subst hab
  cases ev with
  | messagesPollStarted confs pm =>
    have := Ampd.Evm.readPoll_some (show Ampd.Evm.readPoll L R a pm (Ampd.readAll (Ampd.Evm.readMessage L R) confs) = some p from hdes)
    exact ⟨by rw [← hc, this.2.2.2.2.1], _, _, rfl, by rw [this.2.1]; exact hf.1.pollId⟩
  | workerSetPollStarted _ _ _ _ => simp [Ampd.announced, Ampd.Evm.readMessagesPoll] at hdes
  | voted _ _ => simp [Ampd.announced, Ampd.Evm.readMessagesPoll] at hdes
  | pollEnded _ _ => simp [Ampd.announced, Ampd.Evm.readMessagesPoll] at hdes

theorem evm_set_own {D : Type} {L : Router.Lowering} {R : Ampd.Reader} {dec : D → Option Ampd.Evm.GatewayEvent}
    {H : Ampd.Evm.Handler} {E : Ampd.Evm.Env D} {a : Addr} {ev : VV.Event} {t : Ampd.ExecTx}
    (h : t ∈ (Ampd.Evm.handleWorkerSet dec (Ampd.Evm.readWorkerSetPoll L R) H E (.abci (Ampd.announced a ev))).sent)
    (hf : EventFits ev) : a = H.votingVerifier ∧ ∃ id votes, t.msg = .vote id votes ∧ id ≤ u64Max := by
  obtain ⟨p, rr, v, ⟨⟨ab, hab, _, hdes⟩, hc, _⟩, _, _, rfl⟩ := Ampd.Evm.handleWorkerSet_sent h
  simp only [Ampd.Event.abci.injEq] at hab
  subst hab
  cases ev with
  | workerSetPollStarted tx i o pm =>
    have := Ampd.Evm.readPoll_some (show Ampd.Evm.readPoll L R a pm (Ampd.Evm.readWorkerSet R tx i o) = some p from hdes)
    exact ⟨by rw [← hc, this.2.2.2.2.1], _, _, rfl, by rw [this.2.1]; exact hf.1.pollId⟩
  | messagesPollStarted _ _ => simp [Ampd.announced, Ampd.Evm.readWorkerSetPoll] at hdes
  | voted _ _ => simp [Ampd.announced, Ampd.Evm.readWorkerSetPoll] at hdes
  | pollEnded _ _ => simp [Ampd.announced, Ampd.Evm.readWorkerSetPoll] at hdes

theorem sui_messages_own {J : Type} {L : Router.Lowering} {R : Ampd.Reader} {dec : Ampd.Sui.Json J}
    {H : Ampd.Sui.Handler} {E : Ampd.Sui.Env J} {a : Addr} {ev : VV.Event} {t : Ampd.ExecTx}
    (h : t ∈ (Ampd.Sui.handleMessages L dec (Ampd.Sui.readMessagesPoll L R) H E (.abci (Ampd.announced a ev))).sent)
    (hf : EventFits ev) : a = H.votingVerifier ∧ ∃ id votes, t.msg = .vote id votes ∧ id ≤ u64Max := by
  obtain ⟨p, f, ⟨⟨ab, hab, _, hdes⟩, hc, _⟩, _, rfl⟩ := Ampd.Sui.handleMessages_sent h
  simp only [Ampd.Event.abci.injEq] at hab
  subst hab
  cases ev with
  | messagesPollStarted confs pm =>
    have := Ampd.Sui.readPoll_some (show Ampd.Sui.readPoll R a pm (Ampd.readAll (Ampd.Sui.readMessage L R) confs) = some p from hdes)
    exact ⟨by rw [← hc, this.2.2.2.2.1], _, _, rfl, by rw [this.2.1]; exact hf.1.pollId⟩
  | workerSetPollStarted _ _ _ _ => simp [Ampd.announced, Ampd.Sui.readMessagesPoll] at hdes
  | voted _ _ => simp [Ampd.announced, Ampd.Sui.readMessagesPoll] at hdes
  | pollEnded _ _ => simp [Ampd.announced, Ampd.Sui.readMessagesPoll] at hdes

theorem sui_set_own {J : Type} {R : Ampd.Reader} {dec : Ampd.Sui.Json J}
    {H : Ampd.Sui.Handler} {E : Ampd.Sui.Env J} {a : Addr} {ev : VV.Event} {t : Ampd.ExecTx}
    (h : t ∈ (Ampd.Sui.handleWorkerSet dec (Ampd.Sui.readWorkerSetPoll R) H E (.abci (Ampd.announced a ev))).sent)
    (hf : EventFits ev) : a = H.votingVerifier ∧ ∃ id votes, t.msg = .vote id votes ∧ id ≤ u64Max := by
  obtain ⟨p, rr, v, ⟨⟨ab, hab, _, hdes⟩, hc, _⟩, _, _, rfl⟩ := Ampd.Sui.handleWorkerSet_sent h
  simp only [Ampd.Event.abci.injEq] at hab
  subst hab
  cases ev with
  | workerSetPollStarted tx i o pm =>
    have := Ampd.Sui.readPoll_some (show Ampd.Sui.readPoll R a pm (Ampd.Sui.readWorkerSet R tx i o) = some p from hdes)
    exact ⟨by rw [← hc, this.2.2.2.2.1], _, _, rfl, by rw [this.2.1]; exact hf.1.pollId⟩
  | messagesPollStarted _ _ => simp [Ampd.announced, Ampd.Sui.readWorkerSetPoll] at hdes
  | voted _ _ => simp [Ampd.announced, Ampd.Sui.readWorkerSetPoll] at hdes
  | pollEnded _ _ => simp [Ampd.announced, Ampd.Sui.readWorkerSetPoll] at hdes

/-- the source of `Chain/TrustSpec.lean` -/
def TextSource.toSource (G : Texture) : TextSource → Chain.Source
  | .evm K chain saw onChain => .evm Ampd.Evm.RawLog G.L (reader G.finite G.T) (Ampd.Evm.decodeLog K) chain saw onChain
  | .sui saw onChain => .sui Json G.L (reader G.finite G.T) suiJson saw onChain

end Amp.Wire
