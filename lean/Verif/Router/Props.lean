import Verif.Router.Lemmas

/-!
# C17 - C24: the router

`stateAfter cfg cs` is the state after any list of calls `cs` with arbitrary senders and arguments.
-/

namespace Amp.Router

/-! ### a concrete history for the non-vacuity checks -/

/-- admin 1, governance 2, nexus gateway 3 -/
def exCfg : Config := ⟨1, 2, 3⟩

/-- a message -/
def exM (src dst : String) (id : String) : Message :=
  ⟨⟨src.toList, id.toList⟩, "0xa".toList, dst.toList, "0xb".toList, [1]⟩

/-- two chains are registered, one gateway is upgraded, chains are frozen and unfrozen, somebody else
tries to interfere, and messages are routed -/
def exCalls : List Call :=
  [⟨2, .registerChain "eth".toList 10⟩, ⟨2, .registerChain "avax".toList 11⟩,
   ⟨9, .registerChain "bad".toList 9⟩, ⟨2, .registerChain "fantom".toList 10⟩,
   ⟨2, .upgradeGateway "avax".toList 12⟩, ⟨1, .freezeChain "avax".toList .bidirectional⟩,
   ⟨9, .unfreezeChain "avax".toList .bidirectional⟩, ⟨1, .unfreezeChain "avax".toList .outgoing⟩,
   ⟨10, .routeMessages [exM "eth" "avax" "1", exM "eth" "avax" "2", exM "eth" "btc" "3",
     exM "eth" "avax" "4"]⟩]

/-! ### C17 -/

/-- C17: no two registered chains share a gateway, in any reachable state. -/
theorem C17_gateway_unique (cfg : Config) (cs : List Call) {n n' : ChainName} {e e' : ChainEndpoint}
    (h : getChainInfo (stateAfter cfg cs) n = some e)
    (h' : getChainInfo (stateAfter cfg cs) n' = some e') (hg : e.gateway = e'.gateway) :
    n = n' ∧ e = e' := by
  have hn := (regInv_reachable cfg cs).gateways n e n' e' h h' hg
  subst hn
  rw [h] at h'
  exact ⟨rfl, Option.some.inj h'⟩

/-- C17: looking a chain up by gateway finds the registered chain with that gateway if there is one,
and finds nothing otherwise; it never aborts. -/
theorem C17_lookup_exact (cfg : Config) (cs : List Call) (gw : Addr) :
    (∃ e, loadChainByGateway (stateAfter cfg cs) gw = .ok (some e) ∧
      getChainInfo (stateAfter cfg cs) e.name = some e ∧ e.gateway = gw) ∨
    (loadChainByGateway (stateAfter cfg cs) gw = .ok none ∧
      ∀ n e, getChainInfo (stateAfter cfg cs) n = some e → e.gateway ≠ gw) := by
  have hi := regInv_reachable cfg cs
  obtain ⟨o, ho⟩ := load_total hi gw
  cases o with
  | none => exact Or.inr ⟨ho, (load_none hi).mp ho⟩
  | some e => exact Or.inl ⟨e, ho, (load_some hi).mp ho⟩

/-- C17: no call whatsoever aborts. -/
theorem C17_no_panic (cfg : Config) (cs : List Call) (c : Call) :
    exec (stateAfter cfg cs) c ≠ .error .panic := by
  have hi := regInv_reachable cfg cs
  have hl : ∀ gw, loadChainByGateway (stateAfter cfg cs) gw ≠ .error .panic := by
    intro gw h
    obtain ⟨o, ho⟩ := load_total hi gw
    rw [h] at ho
    simp at ho
  revert hl
  generalize stateAfter cfg cs = s
  intro hl h
  unfold exec at h
  split at h
  · split at h
    · simp at h
    unfold registerChain at h
    split at h
    · rename_i e he; simp only [Except.error.injEq] at h; subst h; exact hl _ he
    · simp at h
    · split at h <;> simp at h
  · split at h
    · simp at h
    unfold upgradeGateway at h
    split at h
    · rename_i e he; simp only [Except.error.injEq] at h; subst h; exact hl _ he
    · simp at h
    · split at h <;> simp at h
  · split at h
    · simp at h
    unfold freezeChain at h
    split at h <;> simp at h
  · split at h
    · simp at h
    unfold unfreezeChain at h
    split at h <;> simp at h
  · unfold routeMessages at h
    split at h
    · rename_i e he
      simp only [Except.error.injEq] at h
      subst h
      unfold validateMsgs at he
      split at he
      · simp at he
      split at he
      · rename_i e' he'; simp only [Except.error.injEq] at he; subst he; exact hl _ he'
      · simp at he
      · split at he
        · simp at he
        split at he <;> simp at he
    · split at h
      · rename_i e he
        simp only [Except.error.injEq] at h
        subst h
        revert he
        generalize groupRuns (fun m : Message => m.destinationChain) _ = gs
        intro he
        induction gs with
        | nil => simp [mapE] at he
        | cons g t ih =>
          simp only [mapE] at he
          split at he
          · rename_i e hd
            simp only [Except.error.injEq] at he
            subst he
            unfold dispatchGroup at hd
            split at hd
            · split at hd <;> simp at hd
            · split at hd <;> simp at hd
          · split at he
            · rename_i hd
              simp only [Except.error.injEq] at he
              subst he
              exact ih hd
            · simp at he
      · simp at h

example : getChainInfo (stateAfter exCfg exCalls) "eth".toList = some ⟨"eth".toList, 10, 0⟩ ∧
    getChainInfo (stateAfter exCfg exCalls) "avax".toList = some ⟨"avax".toList, 12, 1⟩ ∧
    getChainInfo (stateAfter exCfg exCalls) "fantom".toList = none ∧
    exec (stateAfter exCfg exCalls) ⟨2, .registerChain "x".toList 10⟩ =
      .error .gatewayAlreadyRegistered := by decide

/-! ### C18 -/

/-- C18: a call that changes what is registered for a chain is either a registration or gateway upgrade
of that chain by governance, changing only the gateway, or a freeze or unfreeze of that chain by the
admin, changing only the frozen directions. -/
theorem C18_changes_authorised (cfg : Config) (cs : List Call) {s' : State} {c : Call} {r : Resp}
    (hx : exec (stateAfter cfg cs) c = .ok (s', r)) {n : ChainName}
    (hne : getChainInfo s' n ≠ getChainInfo (stateAfter cfg cs) n) :
    (c.sender = cfg.governance ∧ ∃ gw,
      (c.msg = .registerChain n gw ∧ getChainInfo (stateAfter cfg cs) n = none ∧
        getChainInfo s' n = some ⟨n, gw, 0⟩) ∨
      (c.msg = .upgradeGateway n gw ∧ ∃ e, getChainInfo (stateAfter cfg cs) n = some e ∧
        getChainInfo s' n = some ⟨e.name, gw, e.frozen⟩)) ∨
    (c.sender = cfg.admin ∧ ∃ d e fl, (c.msg = .freezeChain n d ∨ c.msg = .unfreezeChain n d) ∧
      getChainInfo (stateAfter cfg cs) n = some e ∧ getChainInfo s' n = some ⟨e.name, e.gateway, fl⟩) := by
  have hc := config_reachable cfg cs
  revert hc hx hne
  generalize stateAfter cfg cs = s
  intro hx hne hc
  unfold getChainInfo at *
  cases exec_regStep hx with
  | same h => rw [h] at hne; exact absurd rfl hne
  | registered n' gw hm hs hl hn h =>
    subst h
    by_cases hk : n = n'
    · subst hk
      exact Or.inl ⟨by rw [hs, hc], gw, Or.inl ⟨hm, hn, lookup_store_self _ _ _⟩⟩
    · simp only [lookup_store_ne hk] at hne; exact absurd rfl hne
  | upgraded n' gw e hm hs hl hn h =>
    subst h
    by_cases hk : n = n'
    · subst hk
      exact Or.inl ⟨by rw [hs, hc], gw, Or.inr ⟨hm, e, hn, lookup_store_self _ _ _⟩⟩
    · simp only [lookup_store_ne hk] at hne; exact absurd rfl hne
  | froze n' d e hm hs hn h =>
    subst h
    by_cases hk : n = n'
    · subst hk
      exact Or.inr ⟨by rw [hs, hc], d, e, _, Or.inl hm, hn, lookup_store_self _ _ _⟩
    · simp only [lookup_store_ne hk] at hne; exact absurd rfl hne
  | unfroze n' d e hm hs hn h =>
    subst h
    by_cases hk : n = n'
    · subst hk
      exact Or.inr ⟨by rw [hs, hc], d, e, _, Or.inr hm, hn, lookup_store_self _ _ _⟩
    · simp only [lookup_store_ne hk] at hne; exact absurd rfl hne

/-- C18: administrative calls by the wrong account are rejected. -/
theorem C18_unauthorised_rejected (cfg : Config) (cs : List Call) (c : Call) :
    (c.sender ≠ cfg.governance → ∀ n gw, c.msg = .registerChain n gw ∨ c.msg = .upgradeGateway n gw →
      exec (stateAfter cfg cs) c = .error .unauthorized) ∧
    (c.sender ≠ cfg.admin → ∀ n d, c.msg = .freezeChain n d ∨ c.msg = .unfreezeChain n d →
      exec (stateAfter cfg cs) c = .error .unauthorized) := by
  have hc := config_reachable cfg cs
  constructor
  · rintro hs n gw (hm | hm) <;> simp [exec, hm, hc, Ne.symm hs]
  · rintro hs n d (hm | hm) <;> simp [exec, hm, hc, Ne.symm hs]

/-- C18: routing never changes the registry, and the configured accounts never change. -/
theorem C18_routing_and_config (cfg : Config) (cs : List Call) :
    (stateAfter cfg cs).config = cfg ∧
    ∀ sender ms s' r, exec (stateAfter cfg cs) ⟨sender, .routeMessages ms⟩ = .ok (s', r) →
      s' = stateAfter cfg cs := by
  refine ⟨config_reachable cfg cs, ?_⟩
  intro sender ms s' r h
  exact (routeMessages_ok (by simpa [exec] using h)).1

/-- C18: registered chains never disappear. -/
theorem C18_chains_persist (cfg : Config) (cs ds : List Call) {n : ChainName} {e : ChainEndpoint}
    (h : getChainInfo (stateAfter cfg cs) n = some e) :
    ∃ e', getChainInfo (stateAfter cfg (cs ++ ds)) n = some e' := by
  unfold stateAfter
  rw [runCalls_append]
  refine runCalls_inv exec (P := fun s => ∃ e', getChainInfo s n = some e') ?_ _ ⟨e, h⟩ ds
  rintro s c s' r ⟨e, he⟩ hx
  unfold getChainInfo at *
  cases exec_regStep hx with
  | same h => rw [h]; exact ⟨e, he⟩
  | registered n' gw hm hs hl hn h =>
    subst h
    by_cases hk : n = n'
    · subst hk; exact ⟨_, lookup_store_self _ _ _⟩
    · exact ⟨e, by simp only [lookup_store_ne hk]; exact he⟩
  | upgraded n' gw e' hm hs hl hn h =>
    subst h
    by_cases hk : n = n'
    · subst hk; exact ⟨_, lookup_store_self _ _ _⟩
    · exact ⟨e, by simp only [lookup_store_ne hk]; exact he⟩
  | froze n' d e' hm hs hn h =>
    subst h
    by_cases hk : n = n'
    · subst hk; exact ⟨_, lookup_store_self _ _ _⟩
    · exact ⟨e, by simp only [lookup_store_ne hk]; exact he⟩
  | unfroze n' d e' hm hs hn h =>
    subst h
    by_cases hk : n = n'
    · subst hk; exact ⟨_, lookup_store_self _ _ _⟩
    · exact ⟨e, by simp only [lookup_store_ne hk]; exact he⟩

/-- C18: the registered gateway of a chain is the one given by the last successful registration or
upgrade of that chain. -/
theorem C18_gateway_history (cfg : Config) (cs : List Call) (n : ChainName) :
    (getChainInfo (stateAfter cfg cs) n).map (·.gateway) = gatewayAfter n (history cfg cs) := by
  refine outs_inv exec (P := fun log s => (getChainInfo s n).map (·.gateway) = gatewayAfter n log)
    (init cfg) rfl ?_ cs
  intro log s c s' r hp hx
  unfold getChainInfo at *
  simp only [gatewayAfter, List.foldl_append, List.foldl_cons, List.foldl_nil] at *
  cases exec_regStep hx with
  | same h ms hm => rw [h, hm]; exact hp
  | registered n' gw hm hs hl hn h =>
    subst h
    simp only [hm]
    by_cases hk : n = n'
    · subst hk; simp [lookup_store_self]
    · simp only [lookup_store_ne hk, if_neg (Ne.symm hk)]; exact hp
  | upgraded n' gw e' hm hs hl hn h =>
    subst h
    simp only [hm]
    by_cases hk : n = n'
    · subst hk; simp [lookup_store_self]
    · simp only [lookup_store_ne hk, if_neg (Ne.symm hk)]; exact hp
  | froze n' d e' hm hs hn h =>
    subst h
    simp only [hm]
    by_cases hk : n = n'
    · subst hk; rw [hn] at hp; simpa [lookup_store_self] using hp
    · simp only [lookup_store_ne hk]; exact hp
  | unfroze n' d e' hm hs hn h =>
    subst h
    simp only [hm]
    by_cases hk : n = n'
    · subst hk; rw [hn] at hp; simpa [lookup_store_self] using hp
    · simp only [lookup_store_ne hk]; exact hp

example : gatewayAfter "avax".toList (history exCfg exCalls) = some 12 ∧
    (history exCfg exCalls).length = 6 ∧
    (∃ s' r, exec (stateAfter exCfg exCalls) ⟨2, .upgradeGateway "eth".toList 20⟩ = .ok (s', r) ∧
      getChainInfo s' "eth".toList ≠ getChainInfo (stateAfter exCfg exCalls) "eth".toList) :=
  ⟨by decide, by decide, _, _, rfl, by decide⟩

/-! ### C19 -/

theorem dispatch_ok_iff {s : State} {sender : Addr} (gs : List (ChainName × List Message)) :
    (∃ ds, mapE (dispatchGroup s sender) gs = .ok ds) ↔
    ∀ g ∈ gs, (∃ e, getChainInfo s g.1 = some e ∧ e.outgoingFrozen = false) ∨
      (getChainInfo s g.1 = none ∧ sender ≠ s.config.nexusGateway) := by
  unfold getChainInfo
  have key : ∀ g, (∃ d, dispatchGroup s sender g = .ok d) ↔
      ((∃ e, lookup s.chains g.1 = some e ∧ e.outgoingFrozen = false) ∨
      (lookup s.chains g.1 = none ∧ sender ≠ s.config.nexusGateway)) := by
    intro g
    unfold dispatchGroup
    cases lookup s.chains g.1 with
    | none => by_cases h : sender = s.config.nexusGateway <;> simp [h]
    | some e => cases he : e.outgoingFrozen <;> simp [he]
  constructor
  · rintro ⟨ds, h⟩ g hg
    obtain ⟨d, _, hd⟩ := mapE_mem h hg
    exact (key g).mp ⟨d, hd⟩
  · intro h
    exact mapE_ok_of_forall (fun g hg => (key g).mpr (h g hg))

theorem groups_forall {P : ChainName → Prop} (ms : List Message) :
    (∀ g ∈ groupRuns (·.destinationChain) ms, P g.1) ↔ ∀ m ∈ ms, P m.destinationChain := by
  have hf := groupRuns_flatten (fun m : Message => m.destinationChain) ms
  have hk := groupRuns_key (fun m : Message => m.destinationChain) ms
  constructor
  · intro h m hm
    rw [← hf] at hm
    obtain ⟨g, hg, hmg⟩ := List.mem_flatMap.mp hm
    rw [(hk g hg).2 m hmg]
    exact h g hg
  · intro h g hg
    obtain ⟨hne, hkey⟩ := hk g hg
    obtain ⟨m, hm⟩ := List.exists_mem_of_ne_nil _ hne
    rw [← hkey m hm]
    apply h
    rw [← hf]
    exact List.mem_flatMap.mpr ⟨g, hg, hm⟩

/-- C19/C21/C23: exactly when a batch is routed.  The sender must be the nexus gateway, or the gateway
of a registered chain whose incoming direction is not frozen and which is the source of every message;
and every destination must be registered and not frozen for outgoing traffic, or unknown while the
sender is not the nexus gateway. -/
theorem C19_routed_iff (cfg : Config) (cs : List Call) (sender : Addr) (ms : List Message) :
    (∃ s' r, exec (stateAfter cfg cs) ⟨sender, .routeMessages ms⟩ = .ok (s', r)) ↔
    (sender = cfg.nexusGateway ∨ ∃ n e, getChainInfo (stateAfter cfg cs) n = some e ∧
      e.gateway = sender ∧ e.frozenIn .incoming = false ∧ ∀ m ∈ ms, m.ccId.chain = n) ∧
    ∀ m ∈ ms, (∃ e, getChainInfo (stateAfter cfg cs) m.destinationChain = some e ∧
        e.frozenIn .outgoing = false) ∨
      (getChainInfo (stateAfter cfg cs) m.destinationChain = none ∧ sender ≠ cfg.nexusGateway) := by
  have hc := config_reachable cfg cs
  have hi := regInv_reachable cfg cs
  revert hc hi
  generalize stateAfter cfg cs = s
  intro hc hi
  have hvalid : validateMsgs s sender ms = .ok ms ↔
      (sender = cfg.nexusGateway ∨ ∃ n e, getChainInfo s n = some e ∧
        e.gateway = sender ∧ e.frozenIn .incoming = false ∧ ∀ m ∈ ms, m.ccId.chain = n) := by
    unfold validateMsgs
    rw [hc]
    by_cases hs : sender = cfg.nexusGateway
    · simp [hs]
    rw [if_neg hs]
    obtain ⟨o, ho⟩ := load_total hi sender
    rw [ho]
    cases o with
    | none =>
      simp only [reduceCtorEq, hs, false_or, false_iff]
      rintro ⟨n, e, h1, h2, _⟩
      exact (load_none hi).mp ho n e h1 h2
    | some src =>
      obtain ⟨g1, g2⟩ := (load_some hi).mp ho
      simp only [hs, false_or]
      constructor
      · intro h
        split at h
        · simp at h
        rename_i hf
        split at h
        · simp at h
        rename_i ha
        refine ⟨src.name, src, g1, g2, ?_, ?_⟩
        · simpa [ChainEndpoint.frozenIn] using hf
        · simpa using ha
      · rintro ⟨n, e, h1, h2, h3, h4⟩
        have hn := hi.gateways _ _ _ _ h1 g1 (by rw [h2, g2])
        have hee : e = src := by
          unfold getChainInfo at h1; rw [hn, g1] at h1; exact (Option.some.inj h1).symm
        subst hee
        have hf : e.incomingFrozen = false := h3
        rw [hf, if_neg (by simp), if_neg]
        rw [← hn]
        simpa using h4
  have hdis := (dispatch_ok_iff (s := s) (sender := sender)
    (groupRuns (·.destinationChain) ms)).trans
    (groups_forall (P := fun n => (∃ e, getChainInfo s n = some e ∧ e.outgoingFrozen = false) ∨
      (getChainInfo s n = none ∧ sender ≠ s.config.nexusGateway)) ms)
  rw [hc] at hdis
  rw [← hvalid]
  simp only [ChainEndpoint.frozenIn]
  rw [← hdis]
  constructor
  · rintro ⟨s', r, h⟩
    obtain ⟨_, h1, h2, _⟩ := routeMessages_ok (by simpa [exec] using h)
    exact ⟨h1, _, h2⟩
  · rintro ⟨h1, ds, h2⟩
    exact ⟨s, ⟨ds, ms.map .messageRouted⟩, by simp only [exec, routeMessages, h1, h2]⟩

/-- C19: while the incoming direction of a chain is frozen its gateway cannot route anything (unless
that account also is the nexus gateway), and while the outgoing direction is frozen no batch with a
message for it is routed. -/
theorem C19_frozen_blocks (cfg : Config) (cs : List Call) {n : ChainName} {e : ChainEndpoint}
    (hn : getChainInfo (stateAfter cfg cs) n = some e) (sender : Addr) (ms : List Message) :
    (e.frozenIn .incoming = true → e.gateway = sender → sender ≠ cfg.nexusGateway →
      ∃ err, exec (stateAfter cfg cs) ⟨sender, .routeMessages ms⟩ = .error err) ∧
    (e.frozenIn .outgoing = true → (∃ m ∈ ms, m.destinationChain = n) →
      ∃ err, exec (stateAfter cfg cs) ⟨sender, .routeMessages ms⟩ = .error err) := by
  have hiff := C19_routed_iff cfg cs sender ms
  cases hx : exec (stateAfter cfg cs) ⟨sender, .routeMessages ms⟩ with
  | error err => simp
  | ok x =>
    obtain ⟨s', r⟩ := x
    obtain ⟨h1, h2⟩ := hiff.mp ⟨s', r, hx⟩
    constructor
    · intro hf hg hs
      rcases h1 with h1 | ⟨n', e', g1, g2, g3, _⟩
      · exact absurd h1 hs
      · obtain ⟨_, rfl⟩ := C17_gateway_unique cfg cs hn g1 (by rw [hg, g2])
        rw [hf] at g3; simp at g3
    · rintro hf ⟨m, hm, rfl⟩
      rcases h2 m hm with ⟨e', g1, g2⟩ | ⟨g1, _⟩
      · rw [hn] at g1
        simp only [Option.some.injEq] at g1
        subst g1
        rw [hf] at g2; simp at g2
      · rw [hn] at g1; simp at g1

/-- C19: the error names the frozen chain; for a chain registered and frozen for incoming traffic. -/
theorem C19_frozen_error (cfg : Config) (cs : List Call) {n : ChainName} {e : ChainEndpoint}
    (hn : getChainInfo (stateAfter cfg cs) n = some e) (hf : e.frozenIn .incoming = true)
    (hs : e.gateway ≠ cfg.nexusGateway) (ms : List Message) :
    exec (stateAfter cfg cs) ⟨e.gateway, .routeMessages ms⟩ = .error (.chainFrozen n) := by
  have hi := regInv_reachable cfg cs
  have hl : loadChainByGateway (stateAfter cfg cs) e.gateway = .ok (some e) :=
    (load_some hi).mpr ⟨by rw [hi.names _ _ hn]; exact hn, rfl⟩
  have hf' : e.incomingFrozen = true := hf
  simp only [exec, routeMessages, validateMsgs, config_reachable, if_neg hs, hl, hf', if_true,
    hi.names _ _ hn]

example : (∃ e, getChainInfo (stateAfter exCfg exCalls) "avax".toList = some e ∧
      e.frozenIn .incoming = true ∧ e.frozenIn .outgoing = false ∧ e.gateway ≠ exCfg.nexusGateway) ∧
    (∃ s' r, exec (stateAfter exCfg exCalls)
      ⟨10, .routeMessages [exM "eth" "avax" "1", exM "eth" "btc" "2"]⟩ = .ok (s', r)) ∧
    exec (stateAfter exCfg (exCalls.take 7)) ⟨10, .routeMessages [exM "eth" "btc" "2",
      exM "eth" "avax" "1"]⟩ = .error (.chainFrozen "avax".toList) :=
  ⟨⟨_, rfl, by decide, by decide, by decide⟩, ⟨_, _, rfl⟩, by decide⟩

/-! ### C20 -/

/-- C20: after any history, a direction of a registered chain is frozen exactly if the last successful
freeze or unfreeze of that chain naming the direction was a freeze. -/
theorem C20_frozen_history (cfg : Config) (cs : List Call) {n : ChainName} {e : ChainEndpoint}
    (h : getChainInfo (stateAfter cfg cs) n = some e) (w : Way) :
    e.frozenIn w = frozenAfter n w (history cfg cs) := by
  have key : (∀ e, getChainInfo (stateAfter cfg cs) n = some e →
        e.frozenIn w = frozenAfter n w (history cfg cs)) ∧
      (getChainInfo (stateAfter cfg cs) n = none → frozenAfter n w (history cfg cs) = false) := by
    refine outs_inv exec (P := fun log s => (∀ e, getChainInfo s n = some e →
        e.frozenIn w = frozenAfter n w log) ∧
      (getChainInfo s n = none → frozenAfter n w log = false)) (init cfg)
      ⟨by intro e h; simp [init, getChainInfo, lookup] at h, fun _ => rfl⟩ ?_ cs
    rintro log s c s' r ⟨hp, hq⟩ hx
    unfold getChainInfo at *
    simp only [frozenAfter, List.foldl_append, List.foldl_cons, List.foldl_nil] at *
    generalize List.foldl (fun b (e : Call × Resp) => frozenStep n w b e.1) false log = b at *
    cases exec_regStep hx with
    | same h ms hm => rw [h]; simp only [frozenStep, hm]; exact ⟨hp, hq⟩
    | registered n' gw hm hs hl hn h =>
      subst h
      simp only [frozenStep, hm]
      by_cases hk : n = n'
      · subst hk
        simp only [lookup_store_self, Option.some.injEq, reduceCtorEq, false_implies, and_true]
        rintro e rfl
        rw [hq hn]; exact frozenIn_new _ _ _
      · simp only [lookup_store_ne hk]; exact ⟨hp, hq⟩
    | upgraded n' gw e' hm hs hl hn h =>
      subst h
      simp only [frozenStep, hm]
      by_cases hk : n = n'
      · subst hk
        simp only [lookup_store_self, Option.some.injEq, reduceCtorEq, false_implies, and_true]
        rintro e rfl
        rw [← hp e' hn]
        cases w <;> rfl
      · simp only [lookup_store_ne hk]; exact ⟨hp, hq⟩
    | froze n' d e' hm hs hn h =>
      subst h
      simp only [frozenStep, hm]
      by_cases hk : n = n'
      · subst hk
        simp only [lookup_store_self, Option.some.injEq, reduceCtorEq, false_implies, and_true, true_and]
        rintro e rfl
        rw [frozenIn_or, hp e' hn]
        cases d.covers w <;> simp
      · simp only [lookup_store_ne hk, Ne.symm hk, false_and, if_false]; exact ⟨hp, hq⟩
    | unfroze n' d e' hm hs hn h =>
      subst h
      simp only [frozenStep, hm]
      by_cases hk : n = n'
      · subst hk
        simp only [lookup_store_self, Option.some.injEq, reduceCtorEq, false_implies, and_true, true_and]
        rintro e rfl
        rw [frozenIn_diff, hp e' hn]
        cases d.covers w <;> simp
      · simp only [lookup_store_ne hk, Ne.symm hk, false_and, if_false]; exact ⟨hp, hq⟩
  exact key.1 e h

/-- C20: one freeze adds exactly the named directions, one unfreeze removes exactly the named
directions, and neither changes the gateway or any other chain. -/
theorem C20_step (cfg : Config) (cs : List Call) {s' : State} {c : Call} {r : Resp} {n : ChainName}
    {d : Direction} (hm : c.msg = .freezeChain n d ∨ c.msg = .unfreezeChain n d)
    (hx : exec (stateAfter cfg cs) c = .ok (s', r)) :
    (∀ n', n' ≠ n → getChainInfo s' n' = getChainInfo (stateAfter cfg cs) n') ∧
    ∃ e e', getChainInfo (stateAfter cfg cs) n = some e ∧ getChainInfo s' n = some e' ∧
      e'.name = e.name ∧ e'.gateway = e.gateway ∧
      ∀ w, e'.frozenIn w = (if c.msg = .freezeChain n d then e.frozenIn w || d.covers w
        else e.frozenIn w && !d.covers w) := by
  revert hx
  generalize stateAfter cfg cs = s
  intro hx
  unfold getChainInfo at *
  cases exec_regStep hx with
  | same h ms h' => rw [h'] at hm; simp at hm
  | registered n' gw h' hs hl hn h => rw [h'] at hm; simp at hm
  | upgraded n' gw e' h' hs hl hn h => rw [h'] at hm; simp at hm
  | froze n' d' e' h' hs hn h =>
    rw [h'] at hm
    simp only [Msg.freezeChain.injEq, reduceCtorEq, or_false] at hm
    obtain ⟨rfl, rfl⟩ := hm
    subst h
    refine ⟨fun n'' hk => lookup_store_ne hk, e', _, hn, lookup_store_self _ _ _, rfl, rfl, ?_⟩
    intro w
    rw [if_pos h', frozenIn_or]
  | unfroze n' d' e' h' hs hn h =>
    rw [h'] at hm
    simp only [Msg.unfreezeChain.injEq, reduceCtorEq, false_or] at hm
    obtain ⟨rfl, rfl⟩ := hm
    subst h
    refine ⟨fun n'' hk => lookup_store_ne hk, e', _, hn, lookup_store_self _ _ _, rfl, rfl, ?_⟩
    intro w
    rw [if_neg (by rw [h']; simp), frozenIn_diff]

example : frozenAfter "avax".toList .incoming (history exCfg exCalls) = true ∧
    frozenAfter "avax".toList .outgoing (history exCfg exCalls) = false := by decide

/-! ### C21 -/

/-- C21: messages accepted from an account other than the nexus gateway come from the chain that
account is the registered gateway of. -/
theorem C21_source_authentic (cfg : Config) (cs : List Call) {sender : Addr} {ms : List Message}
    {s' : State} {r : Resp}
    (hx : exec (stateAfter cfg cs) ⟨sender, .routeMessages ms⟩ = .ok (s', r))
    (hs : sender ≠ cfg.nexusGateway) :
    ∀ m ∈ ms, ∃ e, getChainInfo (stateAfter cfg cs) m.ccId.chain = some e ∧ e.gateway = sender := by
  intro m hm
  rcases ((C19_routed_iff cfg cs sender ms).mp ⟨s', r, hx⟩).1 with h | ⟨n, e, h1, h2, _, h4⟩
  · exact absurd h hs
  · exact ⟨e, by rw [h4 m hm]; exact h1, h2⟩

/-- C21: an account that is neither a registered gateway nor the nexus gateway cannot route anything,
not even an empty batch. -/
theorem C21_strangers_rejected (cfg : Config) (cs : List Call) (sender : Addr) (ms : List Message)
    (hs : sender ≠ cfg.nexusGateway)
    (hn : ∀ n e, getChainInfo (stateAfter cfg cs) n = some e → e.gateway ≠ sender) :
    exec (stateAfter cfg cs) ⟨sender, .routeMessages ms⟩ = .error .gatewayNotRegistered := by
  have hl := (load_none (regInv_reachable cfg cs)).mpr hn
  simp only [exec, routeMessages, validateMsgs, config_reachable, if_neg hs, hl]

example : exec (stateAfter exCfg exCalls) ⟨10, .routeMessages [exM "eth" "btc" "1",
      exM "avax" "btc" "1"]⟩ = .error .wrongSourceChain ∧
    exec (stateAfter exCfg exCalls) ⟨77, .routeMessages []⟩ = .error .gatewayNotRegistered := by decide

/-! ### C22 -/

/-- C22: routing neither loses, duplicates, alters nor reorders messages: the dispatched batches
concatenate to the input, each is non-empty, has one destination and goes to the gateway registered for
it, or to the nexus gateway if there is none; one event per message is emitted. -/
theorem C22_conservation (cfg : Config) (cs : List Call) {sender : Addr} {ms : List Message}
    {s' : State} {r : Resp}
    (hx : exec (stateAfter cfg cs) ⟨sender, .routeMessages ms⟩ = .ok (s', r)) :
    r.dispatched.flatMap (·.msgs) = ms ∧ r.events = ms.map .messageRouted ∧
    ∀ d ∈ r.dispatched, d.msgs ≠ [] ∧ ∃ n, (∀ m ∈ d.msgs, m.destinationChain = n) ∧
      d.contract = recipient cfg (stateAfter cfg cs) n := by
  have hc := config_reachable cfg cs
  revert hc hx
  generalize stateAfter cfg cs = s
  intro hx hc
  obtain ⟨_, _, h2, h3⟩ := routeMessages_ok (by simpa [exec] using hx)
  have hone : ∀ g d, dispatchGroup s sender g = .ok d → d.msgs = g.2 ∧
      d.contract = recipient cfg s g.1 := by
    intro g d hd
    unfold dispatchGroup at hd
    unfold recipient getChainInfo
    split at hd
    · rename_i e he
      split at hd
      · simp at hd
      · simp only [Except.ok.injEq] at hd; subst hd; exact ⟨rfl, by rw [he]⟩
    · rename_i he
      split at hd
      · simp only [Except.ok.injEq] at hd; subst hd; exact ⟨rfl, by rw [he]; simp [hc]⟩
      · simp at hd
  have hflat : ∀ gs ds, mapE (dispatchGroup s sender) gs = .ok ds →
      ds.flatMap (·.msgs) = gs.flatMap Prod.snd := by
    intro gs
    induction gs with
    | nil => intro ds h; simp only [mapE, Except.ok.injEq] at h; subst h; rfl
    | cons g t ih =>
      intro ds h
      obtain ⟨b, bs, g1, g2, rfl⟩ := mapE_cons_ok.mp h
      simp only [List.flatMap_cons, ih bs g2, (hone g b g1).1]
  refine ⟨?_, h3, ?_⟩
  · rw [hflat _ _ h2, groupRuns_flatten]
  · intro d hd
    obtain ⟨g, hg, hgd⟩ := mapE_mem_right h2 hd
    obtain ⟨e1, e2⟩ := hone g d hgd
    obtain ⟨k1, k2⟩ := groupRuns_key (fun m : Message => m.destinationChain) ms g hg
    exact ⟨by rw [e1]; exact k1, g.1, by rw [e1]; exact k2, e2⟩

/-- C22: in particular each message is handed on exactly as often as it was given, to the gateway of its
own destination. -/
theorem C22_each_message (cfg : Config) (cs : List Call) {sender : Addr} {ms : List Message}
    {s' : State} {r : Resp}
    (hx : exec (stateAfter cfg cs) ⟨sender, .routeMessages ms⟩ = .ok (s', r)) (m : Message) :
    ((r.dispatched.filter (fun d => d.contract = recipient cfg (stateAfter cfg cs) m.destinationChain)).flatMap (·.msgs)).count m = ms.count m := by
  obtain ⟨h1, _, h3⟩ := C22_conservation cfg cs hx
  have : ∀ ds : List Dispatch, (∀ d ∈ ds, ∃ n, (∀ m ∈ d.msgs, m.destinationChain = n) ∧
      d.contract = recipient cfg (stateAfter cfg cs) n) →
      ((ds.filter (fun d => d.contract = recipient cfg (stateAfter cfg cs) m.destinationChain)).flatMap (·.msgs)).count m = (ds.flatMap (·.msgs)).count m := by
    intro ds hds
    induction ds with
    | nil => rfl
    | cons d t ih =>
      have iht := ih (fun x hx => hds x (by simp [hx]))
      obtain ⟨n, g1, g2⟩ := hds d (by simp)
      rw [List.filter_cons]
      split
      · simp only [List.flatMap_cons, List.count_append, iht]
      · rename_i hne
        have : m ∉ d.msgs := by
          intro hm
          apply hne
          rw [g1 m hm, g2]
          simp
        simp only [List.flatMap_cons, List.count_append, List.count_eq_zero.mpr this, iht, Nat.zero_add]
  rw [this r.dispatched (fun d hd => (h3 d hd).2), h1]

example : ((history exCfg exCalls).getLast?.map (fun e => e.2.dispatched)) =
    some [⟨12, [exM "eth" "avax" "1", exM "eth" "avax" "2"]⟩, ⟨3, [exM "eth" "btc" "3"]⟩,
      ⟨12, [exM "eth" "avax" "4"]⟩] := by decide

/-! ### C23 -/

/-- C23: a message for an unregistered destination, in a batch accepted from anybody, was not sent by
the nexus gateway and is handed to the nexus gateway. -/
theorem C23_unknown_to_nexus (cfg : Config) (cs : List Call) {sender : Addr} {ms : List Message}
    {s' : State} {r : Resp}
    (hx : exec (stateAfter cfg cs) ⟨sender, .routeMessages ms⟩ = .ok (s', r)) {m : Message}
    (hm : m ∈ ms) (hu : getChainInfo (stateAfter cfg cs) m.destinationChain = none) :
    sender ≠ cfg.nexusGateway ∧ ∃ d ∈ r.dispatched, m ∈ d.msgs ∧ d.contract = cfg.nexusGateway := by
  refine ⟨?_, ?_⟩
  · rcases ((C19_routed_iff cfg cs sender ms).mp ⟨s', r, hx⟩).2 m hm with ⟨e, h, _⟩ | ⟨_, h⟩
    · rw [hu] at h; simp at h
    · exact h
  · obtain ⟨h1, _, h3⟩ := C22_conservation cfg cs hx
    rw [← h1] at hm
    obtain ⟨d, hd, hmd⟩ := List.mem_flatMap.mp hm
    obtain ⟨_, n, g1, g2⟩ := h3 d hd
    refine ⟨d, hd, hmd, ?_⟩
    rw [g2, ← g1 m hmd, recipient, hu]

/-- C23: a batch from the nexus gateway with an unknown destination is rejected; nothing the nexus
gateway sends is handed back to it, unless it is itself registered as the gateway of a chain. -/
theorem C23_no_bounce (cfg : Config) (cs : List Call) {ms : List Message} {s' : State} {r : Resp}
    (hx : exec (stateAfter cfg cs) ⟨cfg.nexusGateway, .routeMessages ms⟩ = .ok (s', r))
    (hg : ∀ n e, getChainInfo (stateAfter cfg cs) n = some e → e.gateway ≠ cfg.nexusGateway) :
    ∀ d ∈ r.dispatched, d.contract ≠ cfg.nexusGateway := by
  intro d hd
  obtain ⟨h1, _, h3⟩ := C22_conservation cfg cs hx
  obtain ⟨hne, n, g1, g2⟩ := h3 d hd
  obtain ⟨m, hm⟩ := List.exists_mem_of_ne_nil _ hne
  have hmem : m ∈ ms := by rw [← h1]; exact List.mem_flatMap.mpr ⟨d, hd, hm⟩
  rcases ((C19_routed_iff cfg cs _ ms).mp ⟨s', r, hx⟩).2 m hmem with ⟨e, h, _⟩ | ⟨_, h⟩
  · rw [g1 m hm] at h
    rw [g2, recipient, h]
    exact hg n e h
  · exact absurd rfl h

example : exec (stateAfter exCfg exCalls) ⟨3, .routeMessages [exM "btc" "avax" "1",
      exM "btc" "sol" "1"]⟩ = .error .chainNotFound ∧
    (∃ s' r, exec (stateAfter exCfg exCalls) ⟨3, .routeMessages [exM "btc" "avax" "1"]⟩ =
      .ok (s', r) ∧ r.dispatched = [⟨12, [exM "btc" "avax" "1"]⟩]) :=
  ⟨by decide, _, _, rfl, by decide⟩

/-! ### C24 -/

/-- C24: printing a cross-chain id and parsing the result gives the id back. -/
theorem C24_roundtrip (L : Lowering) (c : CCId) (hc : c.chain.Valid L) (hi : c.id ≠ []) :
    CCId.parse L c.show = some c := by
  obtain ⟨h1, h2, h3⟩ := hc
  unfold CCId.parse CCId.show
  rw [splitOnce_append h2]
  simp only [ChainName.parse, h1, h2, or_self, if_false, hi, h3]

/-- C24: whatever parses prints back to the same text up to the case of the chain name, and is valid. -/
theorem C24_parse_sound (L : Lowering) (s : Str) (c : CCId) (h : CCId.parse L s = some c) :
    c.chain.Valid L ∧ c.id ≠ [] ∧ ∃ ch, s = ch ++ idSep :: c.id ∧ idSep ∉ ch ∧ ch ≠ [] ∧
      c.chain = L.f ch := by
  unfold CCId.parse at h
  split at h
  · simp at h
  rename_i ch i hsp
  obtain ⟨e1, e2⟩ := splitOnce_eq_some.mp hsp
  unfold ChainName.parse at h
  split at h
  · simp at h
  rename_i ch' hch
  split at hch
  · simp at hch
  rename_i hne
  rw [not_or] at hne
  simp only [Option.some.injEq] at hch
  subst hch
  split at h
  · simp at h
  rename_i hi
  simp only [Option.some.injEq] at h
  subst h
  exact ⟨⟨L.nonempty _ hne.2, L.noSep _ hne.1, L.idem _⟩, hi, ch, e1, hne.1, hne.2, rfl⟩

/-- C24: the printed form determines the id (for ids with valid chain names). -/
theorem C24_show_injective (L : Lowering) {a b : CCId} (ha : a.chain.Valid L) (hb : b.chain.Valid L)
    (h : a.show = b.show) : a = b := by
  have h1 := splitOnce_append ha.2.1 a.id
  have h2 := splitOnce_append hb.2.1 b.id
  unfold CCId.show at h
  rw [h, h2] at h1
  simp only [Option.some.injEq, Prod.mk.injEq] at h1
  cases a; cases b
  simp_all

/-- C24: chain names that are empty or contain the separator are rejected, all others are accepted,
case is normalised, normalising twice changes nothing, and two spellings give the same name exactly if
they agree up to case. -/
theorem C24_chain_names (L : Lowering) (s : Str) :
    (ChainName.parse L s = none ↔ s = [] ∨ idSep ∈ s) ∧
    (∀ n, ChainName.parse L s = some n → n.Valid L ∧ n = L.f s ∧ ChainName.parse L n = some n) ∧
    (∀ n, ChainName.Valid L n → ChainName.parse L n = some n) ∧
    (∀ t, s ≠ [] → t ≠ [] → idSep ∉ s → idSep ∉ t →
      (ChainName.parse L s = ChainName.parse L t ↔ L.f s = L.f t)) := by
  have hvalid : ∀ n, ChainName.Valid L n → ChainName.parse L n = some n := by
    intro n h
    unfold ChainName.parse
    rw [if_neg (by rw [not_or]; exact ⟨h.2.1, h.1⟩), h.2.2]
  refine ⟨?_, ?_, hvalid, ?_⟩
  · unfold ChainName.parse
    by_cases h : idSep ∈ s ∨ s = []
    · simp [h]; exact h.symm
    · simp only [h, if_false, reduceCtorEq, false_iff]
      exact fun h' => h h'.symm
  · intro n h
    unfold ChainName.parse at h
    split at h
    · simp at h
    rename_i hne
    rw [not_or] at hne
    simp only [Option.some.injEq] at h
    subst h
    have hv : ChainName.Valid L (L.f s) := ⟨L.nonempty _ hne.2, L.noSep _ hne.1, L.idem _⟩
    exact ⟨hv, rfl, hvalid _ hv⟩
  · intro t h1 h2 h3 h4
    unfold ChainName.parse
    rw [if_neg (by rw [not_or]; exact ⟨h3, h1⟩), if_neg (by rw [not_or]; exact ⟨h4, h2⟩)]
    simp

example : CCId.parse asciiLower "Ethereum:0xab:1".toList = some ⟨"ethereum".toList, "0xab:1".toList⟩ ∧
    CCId.parse asciiLower ":x".toList = none ∧ CCId.parse asciiLower "eth:".toList = none ∧
    (⟨"ethereum".toList, "0xab:1".toList⟩ : CCId).chain.Valid asciiLower := by
  refine ⟨rfl, rfl, rfl, by decide, by decide, rfl⟩

end Amp.Router
