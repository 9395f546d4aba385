import Verif.Chain.Structure
import Verif.VV.Props
import Verif.Gateway.Props
import Verif.Router.Props
import Verif.Nexus.Props

/-! # Entries of the log, contract by contract -/

namespace Amp.Chain

open Amp.Router (ChainName CCId Message)

variable {P : Params} {setup : Setup} {l l₁ l₂ : List Entry} {e : Entry} {w : World} {a : Addr}

/-- the calls of a verifier in the log -/
abbrev verifierCalls (a : Addr) (l : List Entry) : List VV.Call := (actsAt a l).filterMap Act.verifierCall?
/-- the calls of a gateway in the log -/
abbrev gatewayCalls (a : Addr) (l : List Entry) : List Gateway.Call := (actsAt a l).filterMap Act.gatewayCall?
/-- the calls of a router in the log -/
abbrev routerCalls (a : Addr) (l : List Entry) : List Router.Call := (actsAt a l).filterMap Act.routerCall?
/-- the calls of a nexus gateway in the log -/
abbrev nexusCalls (a : Addr) (l : List Entry) : List Nexus.Call := (actsAt a l).filterMap Act.nexusCall?

/-- every prefix of a genuine log is one -/
theorem inv_of_genuine (h : ∀ l₁ e l₂, l = l₁ ++ e :: l₂ → Genuine P setup l₁ e) :
    Inv P setup l (worldOf P setup l) := by
  induction l using List.reverseRecOn with
  | nil =>
    have := Inv.genesis P setup
    rw [← this.world]
    exact this
  | append_singleton l e ih =>
    have hi := ih (fun l₁ x l₂ hl => h l₁ x (l₂ ++ [e]) (by rw [hl]; simp))
    obtain ⟨ho, b, reply, s', hc⟩ := h l e [] rfl
    have := hi.snoc ho hc
    rw [this.world] at this
    exact this

theorem Inv.prefix (hi : Inv P setup l w) (hl : l = l₁ ++ l₂) : Inv P setup l₁ (worldOf P setup l₁) :=
  inv_of_genuine (fun a x b h => hi.genuine a x (b ++ l₂) (by rw [hl, h]; simp))

theorem actsAt_mem (he : e ∈ l) : e.act ∈ actsAt e.p.target l := by
  unfold actsAt
  exact List.mem_map_of_mem (List.mem_filter.mpr ⟨he, by simp⟩)

theorem mem_actsAt {x : Act} (h : x ∈ actsAt a l) : ∃ e ∈ l, e.p.target = a ∧ e.act = x := by
  unfold actsAt at h
  obtain ⟨e, he, rfl⟩ := List.mem_map.mp h
  obtain ⟨h1, h2⟩ := List.mem_filter.mp he
  exact ⟨e, h1, by simpa using h2, rfl⟩

theorem sent_sender {p : Pending} (h : p ∈ e.sent) : p.sender = e.p.target := by
  unfold Entry.sent at h
  obtain ⟨o, _, rfl⟩ := List.mem_map.mp h
  rfl

theorem sent_out {p : Pending} (h : p ∈ e.sent) : (p.target, p.msg) ∈ e.act.outs := by
  unfold Entry.sent at h
  obtain ⟨o, ho, rfl⟩ := List.mem_map.mp h
  exact ho

/-- a message from a contract was sent by an earlier call of it -/
theorem Origin.sent {p : Pending} (h : Origin setup l p) (hs : (setup p.sender).isSome) :
    ∃ e ∈ l, e.p.target = p.sender ∧ (p.target, p.msg) ∈ e.act.outs := by
  rcases h with h | ⟨e, he, hp⟩
  · rw [h] at hs; simp at hs
  · exact ⟨e, he, (sent_sender hp).symm, sent_out hp⟩

/-! ### Gateway -/

theorem Inv.gateway_state (hi : Inv P setup l w) {cfg : Gateway.Config} (hk : setup a = some (.gateway cfg)) :
    w a = some (.gateway (Gateway.stateAfter cfg (gatewayCalls a l))) := by
  rw [hi.world]
  simp [worldOf, hk, replay]

theorem Inv.gateway_mem (hi : Inv P setup l w) {cfg : Gateway.Config} (hk : setup e.p.target = some (.gateway cfg))
    (he : e ∈ l) : ∃ c r, e.act = .gateway c r ∧ (c, r) ∈ Gateway.history cfg (gatewayCalls e.p.target l) := by
  have h := hi.acts _ _ hk
  simp only [Matches] at h
  have hm := actsAt_mem he
  rw [h] at hm
  obtain ⟨x, hx, hxe⟩ := List.mem_map.mp hm
  exact ⟨x.1, x.2, hxe.symm, hx⟩

theorem Inv.gateway_entry (hi : Inv P setup l w) {cfg : Gateway.Config} (hk : setup a = some (.gateway cfg))
    {x : Gateway.Call × Gateway.Resp} (hx : x ∈ Gateway.history cfg (gatewayCalls a l)) :
    ∃ e ∈ l, e.p.target = a ∧ e.act = .gateway x.1 x.2 := by
  have h := hi.acts _ _ hk
  simp only [Matches] at h
  apply mem_actsAt
  rw [h]
  exact List.mem_map.mpr ⟨x, hx, rfl⟩

theorem Inv.gateway_call (hi : Inv P setup l w) (hl : l = l₁ ++ e :: l₂) {cfg : Gateway.Config}
    (hk : setup e.p.target = some (.gateway cfg)) :
    ∃ m r s', e.p.msg.toGateway = some m ∧
      e.act = .gateway ⟨e.p.sender, askVerifier P (worldOf P setup l₁) cfg.verifier, m⟩ r ∧
      Gateway.exec (Gateway.stateAfter cfg (gatewayCalls e.p.target l₁))
        ⟨e.p.sender, askVerifier P (worldOf P setup l₁) cfg.verifier, m⟩ = .ok (s', r) := by
  obtain ⟨_, b, reply, s', hc⟩ := hi.genuine l₁ e l₂ hl
  have hw := (hi.prefix hl).gateway_state hk
  unfold call at hc
  rw [hw] at hc
  simp only [Gateway.config_reachable] at hc
  cases hm : e.p.msg.toGateway with
  | none => rw [hm] at hc; simp at hc
  | some m =>
    rw [hm] at hc
    simp only at hc
    split at hc
    · simp at hc
    · rename_i s1 r hx
      simp only [Except.ok.injEq, Prod.mk.injEq] at hc
      exact ⟨m, r, s1, rfl, hc.2.symm, hx⟩

/-! ### Router -/

theorem Inv.router_state (hi : Inv P setup l w) {cfg : Router.Config} (hk : setup a = some (.router cfg)) :
    w a = some (.router (Router.stateAfter cfg (routerCalls a l))) := by
  rw [hi.world]
  simp [worldOf, hk, replay]

theorem Inv.router_mem (hi : Inv P setup l w) {cfg : Router.Config} (hk : setup e.p.target = some (.router cfg))
    (he : e ∈ l) : ∃ c r, e.act = .router c r ∧ (c, r) ∈ Router.history cfg (routerCalls e.p.target l) := by
  have h := hi.acts _ _ hk
  simp only [Matches] at h
  have hm := actsAt_mem he
  rw [h] at hm
  obtain ⟨x, hx, hxe⟩ := List.mem_map.mp hm
  exact ⟨x.1, x.2, hxe.symm, hx⟩

theorem Inv.router_entry (hi : Inv P setup l w) {cfg : Router.Config} (hk : setup a = some (.router cfg))
    {x : Router.Call × Router.Resp} (hx : x ∈ Router.history cfg (routerCalls a l)) :
    ∃ e ∈ l, e.p.target = a ∧ e.act = .router x.1 x.2 := by
  have h := hi.acts _ _ hk
  simp only [Matches] at h
  apply mem_actsAt
  rw [h]
  exact List.mem_map.mpr ⟨x, hx, rfl⟩

theorem Inv.router_call (hi : Inv P setup l w) (hl : l = l₁ ++ e :: l₂) {cfg : Router.Config}
    (hk : setup e.p.target = some (.router cfg)) :
    ∃ m r s', e.p.msg.toRouter = some m ∧ e.act = .router ⟨e.p.sender, m⟩ r ∧
      Router.exec (Router.stateAfter cfg (routerCalls e.p.target l₁)) ⟨e.p.sender, m⟩ = .ok (s', r) := by
  obtain ⟨_, b, reply, s', hc⟩ := hi.genuine l₁ e l₂ hl
  have hw := (hi.prefix hl).router_state hk
  unfold call at hc
  rw [hw] at hc
  simp only at hc
  cases hm : e.p.msg.toRouter with
  | none => rw [hm] at hc; simp at hc
  | some m =>
    rw [hm] at hc
    simp only at hc
    split at hc
    · simp at hc
    · rename_i s1 r hx
      simp only [Except.ok.injEq, Prod.mk.injEq] at hc
      exact ⟨m, r, s1, rfl, hc.2.symm, hx⟩

/-! ### Nexus gateway -/

theorem Inv.nexus_state (hi : Inv P setup l w) {cfg : Nexus.Config} (hk : setup a = some (.nexus cfg)) :
    w a = some (.nexus (Nexus.stateAfter cfg (nexusCalls a l))) := by
  rw [hi.world]
  simp [worldOf, hk, replay]

theorem Inv.nexus_mem (hi : Inv P setup l w) {cfg : Nexus.Config} (hk : setup e.p.target = some (.nexus cfg))
    (he : e ∈ l) : ∃ c r, e.act = .nexus c r ∧ (c, r) ∈ Nexus.history cfg (nexusCalls e.p.target l) := by
  have h := hi.acts _ _ hk
  simp only [Matches] at h
  have hm := actsAt_mem he
  rw [h] at hm
  obtain ⟨x, hx, hxe⟩ := List.mem_map.mp hm
  exact ⟨x.1, x.2, hxe.symm, hx⟩

theorem Inv.nexus_entry (hi : Inv P setup l w) {cfg : Nexus.Config} (hk : setup a = some (.nexus cfg))
    {x : Nexus.Call × Nexus.Resp} (hx : x ∈ Nexus.history cfg (nexusCalls a l)) :
    ∃ e ∈ l, e.p.target = a ∧ e.act = .nexus x.1 x.2 := by
  have h := hi.acts _ _ hk
  simp only [Matches] at h
  apply mem_actsAt
  rw [h]
  exact List.mem_map.mpr ⟨x, hx, rfl⟩

theorem Inv.nexus_call (hi : Inv P setup l w) (hl : l = l₁ ++ e :: l₂) {cfg : Nexus.Config}
    (hk : setup e.p.target = some (.nexus cfg)) :
    ∃ m r s', e.p.msg.toNexus = some m ∧ e.act = .nexus ⟨e.p.sender, m⟩ r ∧
      Nexus.exec (Nexus.stateAfter cfg (nexusCalls e.p.target l₁)) ⟨e.p.sender, m⟩ = .ok (s', r) := by
  obtain ⟨_, b, reply, s', hc⟩ := hi.genuine l₁ e l₂ hl
  have hw := (hi.prefix hl).nexus_state hk
  unfold call at hc
  rw [hw] at hc
  simp only at hc
  cases hm : e.p.msg.toNexus with
  | none => rw [hm] at hc; simp at hc
  | some m =>
    rw [hm] at hc
    simp only at hc
    split at hc
    · simp at hc
    · rename_i s1 r hx
      simp only [Except.ok.injEq, Prod.mk.injEq] at hc
      exact ⟨m, r, s1, rfl, hc.2.symm, hx⟩

/-! ### Verifier -/

theorem Inv.verifier_state (hi : Inv P setup l w) {cfg : VV.Config} (hk : setup a = some (.verifier cfg)) :
    w a = some (.verifier (VV.stateAfter P.H cfg (verifierCalls a l))) := by
  rw [hi.world]
  simp [worldOf, hk, replay]

theorem Inv.verifier_entry (hi : Inv P setup l w) {cfg : VV.Config} (hk : setup a = some (.verifier cfg))
    {x : VV.Call × VV.Resp} (hx : x ∈ VV.history P.H cfg (verifierCalls a l)) :
    ∃ e ∈ l, e.p.target = a ∧ e.act = .verifier x.1 x.2 := by
  have h := hi.acts _ _ hk
  simp only [Matches] at h
  apply mem_actsAt
  rw [h]
  exact List.mem_map.mpr ⟨x, hx, rfl⟩

theorem Inv.verifier_call (hi : Inv P setup l w) (hl : l = l₁ ++ e :: l₂) {cfg : VV.Config} (hv : cfg.Valid)
    (hk : setup e.p.target = some (.verifier cfg)) :
    ∃ c r, e.act = .verifier c r ∧ c.sender = e.p.sender ∧ e.p.msg = .verifier c.msg ∧
      c.workers = askWorkers (worldOf P setup l₁) cfg.serviceRegistry cfg.serviceName cfg.sourceChain := by
  obtain ⟨_, b, reply, s', hc⟩ := hi.genuine l₁ e l₂ hl
  have hw := (hi.prefix hl).verifier_state hk
  have hcfg := (VV.inv_reachable P.H hv (verifierCalls e.p.target l₁)).config
  unfold call at hc
  rw [hw] at hc
  simp only [hcfg] at hc
  cases hm : e.p.msg with
  | verifier m =>
    rw [hm] at hc
    simp only at hc
    split at hc
    · simp at hc
    · rename_i s1 r hx
      simp only [Except.ok.injEq, Prod.mk.injEq] at hc
      exact ⟨_, r, hc.2.symm, rfl, rfl, rfl⟩
  | _ => rw [hm] at hc; simp at hc

end Amp.Chain
