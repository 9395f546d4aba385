import Verif.Chain.Lemmas
import Verif.Chain.Spec

/-! # C72: delivery implies verification or nexus -/

namespace Amp.Chain

open Amp.Router (ChainName CCId Message)

variable {P : Params} {setup : Setup} {l l₁ l₂ : List Entry} {e : Entry} {w : World} {a R : Addr}
  {rc : Router.Config} {nc : Nexus.Config}

theorem gatewayAfter_some {n : ChainName} {g : Addr} (lg : List (Router.Call × Router.Resp))
    (h : Router.gatewayAfter n lg = some g) :
    ∃ e ∈ lg, e.1.msg = .registerChain n g ∨ e.1.msg = .upgradeGateway n g := by
  induction lg using List.reverseRecOn with
  | nil => simp [Router.gatewayAfter] at h
  | append_singleton t x ih =>
    unfold Router.gatewayAfter at h ih
    rw [List.foldl_append] at h
    simp only [List.foldl_cons, List.foldl_nil] at h
    have back : (∃ e ∈ t, e.1.msg = .registerChain n g ∨ e.1.msg = .upgradeGateway n g) →
        ∃ e ∈ t ++ [x], e.1.msg = .registerChain n g ∨ e.1.msg = .upgradeGateway n g :=
      fun ⟨e, he, h⟩ => ⟨e, List.mem_append_left _ he, h⟩
    split at h
    · rename_i n' gw hm
      split at h
      · rename_i hn
        simp only [Option.some.injEq] at h
        subst hn; subst h
        exact ⟨x, by simp, Or.inl hm⟩
      · exact back (ih h)
    · rename_i n' gw hm
      split at h
      · rename_i hn
        simp only [Option.some.injEq] at h
        subst hn; subst h
        exact ⟨x, by simp, Or.inr hm⟩
      · exact back (ih h)
    · exact back (ih h)

/-- an answer of the verifier about distinct ids, message by message -/
theorem isVerified_of_reported {H : VV.Hashes} {s : VV.State} {ms : List Message} {ans : List (CCId × Bool)}
    (hnd : (ms.map (·.ccId)).Nodup) (h : VV.isVerified H s ms = .ok ans) {m : Message} (hm : m ∈ ms)
    (hr : Gateway.ReportedVerified ans m.ccId = true) : VV.msgStatus H s m = .ok .verified := by
  have hmem : (m.ccId, true) ∈ ans := by
    unfold Gateway.ReportedVerified at hr
    have := List.mem_of_getLast? (of_decide_eq_true hr)
    exact (List.mem_filter.mp this).1
  clear hr
  unfold VV.isVerified at h
  induction ms generalizing ans with
  | nil => simp at hm
  | cons x t ih =>
    obtain ⟨b, bs, h1, h2, rfl⟩ := mapE_cons_ok.mp h
    rw [List.map_cons, List.nodup_cons] at hnd
    have hx : ∃ st, VV.msgStatus H s x = .ok st ∧ b = (x.ccId, decide (st = .verified)) := by
      unfold VV.isVerified1 at h1
      split at h1
      · simp at h1
      · rename_i st hst
        simp only [Except.ok.injEq] at h1
        exact ⟨st, hst, h1.symm⟩
    obtain ⟨st, hst, rfl⟩ := hx
    have hids : ∀ {t : List Message} {bs}, mapE (VV.isVerified1 H s) t = .ok bs → bs.map Prod.fst = t.map (·.ccId) := by
      intro t
      induction t with
      | nil => intro bs h; simp only [mapE, Except.ok.injEq] at h; subst h; rfl
      | cons y t ih =>
        intro bs h
        obtain ⟨c, cs, h3, h4, rfl⟩ := mapE_cons_ok.mp h
        unfold VV.isVerified1 at h3
        split at h3
        · simp at h3
        · simp only [Except.ok.injEq] at h3
          subst h3
          rw [List.map_cons, List.map_cons, ih h4]
    have hb := hids h2
    rcases List.mem_cons.mp hm with rfl | hm
    · rcases List.mem_cons.mp hmem with h | h
      · simp only [Prod.mk.injEq, true_and] at h
        have : st = .verified := of_decide_eq_true h.symm
        rw [hst, this]
      · exact absurd (hb ▸ List.mem_map_of_mem (f := Prod.fst) h) hnd.1
    · rcases List.mem_cons.mp hmem with h | h
      · simp only [Prod.mk.injEq] at h
        exact absurd (h.1 ▸ List.mem_map_of_mem (f := fun m : Message => m.ccId) hm) hnd.1
      · exact ih hnd.2 h2 hm h

theorem askVerifier_one {vc : VV.Config} (hi : Inv P setup l w) (hk : setup a = some (.verifier vc)) {m : Message} :
    askVerifier P w a [m] = some [(m.ccId, true)] ↔
      VV.msgStatus P.H (VV.stateAfter P.H vc (verifierCalls a l)) m = .ok .verified := by
  unfold askVerifier
  rw [hi.verifier_state hk]
  simp only [VV.isVerified, mapE, VV.isVerified1]
  cases h : VV.msgStatus P.H (VV.stateAfter P.H vc (verifierCalls a l)) m with
  | error x => simp [answer]
  | ok st => simp [answer]

theorem verified_later {vc : VV.Config} (hv : vc.Valid) (hi : Inv P setup (l₁ ++ l₂) w)
    (hk : setup a = some (.verifier vc)) {m : Message}
    (h : askVerifier P (worldOf P setup l₁) a [m] = some [(m.ccId, true)]) :
    askVerifier P w a [m] = some [(m.ccId, true)] := by
  rw [askVerifier_one (hi.prefix rfl) hk] at h
  rw [askVerifier_one hi hk]
  unfold verifierCalls
  rw [actsAt_append, List.filterMap_append]
  exact VV.C10_verified_forever P.H vc hv _ _ m h

theorem dispatch_mem {s s' : Router.State} {c : Router.Call} {r : Router.Resp} (h : Router.exec s c = .ok (s', r))
    {d : Router.Dispatch} (hd : d ∈ r.dispatched) : ∃ ms, c.msg = .routeMessages ms := by
  unfold Router.exec at h
  cases hm : c.msg with
  | routeMessages ms => exact ⟨ms, rfl⟩
  | registerChain n g =>
    rw [hm] at h
    simp only [Router.registerChain] at h
    repeat (split at h <;> try (simp at h; done))
    simp only [Except.ok.injEq, Prod.mk.injEq] at h
    rw [← h.2] at hd
    simp at hd
  | upgradeGateway n g =>
    rw [hm] at h
    simp only [Router.upgradeGateway] at h
    repeat (split at h <;> try (simp at h; done))
    simp only [Except.ok.injEq, Prod.mk.injEq] at h
    rw [← h.2] at hd
    simp at hd
  | freezeChain n d =>
    rw [hm] at h
    simp only [Router.freezeChain] at h
    repeat (split at h <;> try (simp at h; done))
    simp only [Except.ok.injEq, Prod.mk.injEq] at h
    rw [← h.2] at hd
    simp at hd
  | unfreezeChain n d =>
    rw [hm] at h
    simp only [Router.unfreezeChain] at h
    repeat (split at h <;> try (simp at h; done))
    simp only [Except.ok.injEq, Prod.mk.injEq] at h
    rw [← h.2] at hd
    simp at hd

theorem toRouter_route {m : Msg} {ms : List Message} (h : m.toRouter = some (.routeMessages ms)) :
    m = .route ms ∨ m = .router (.routeMessages ms) := by
  cases m with
  | router x => simp only [Msg.toRouter, Option.some.injEq] at h; right; rw [h]
  | route x =>
    simp only [Msg.toRouter, Option.some.injEq, Router.Msg.routeMessages.injEq] at h
    left; rw [h]
  | _ => simp [Msg.toRouter] at h

theorem toRouter_other {m : Msg} {x : Router.Msg} (h : m.toRouter = some x) (hx : ∀ ms, x ≠ .routeMessages ms) :
    m = .router x := by
  cases m with
  | router y => simp only [Msg.toRouter, Option.some.injEq] at h; rw [h]
  | route y =>
    simp only [Msg.toRouter, Option.some.injEq] at h
    exact absurd h.symm (hx y)
  | _ => simp [Msg.toRouter] at h

/-- a gateway that is registered was registered by a call in the log -/
theorem registered_entry (hi : Inv P setup l w) (hR : setup R = some (.router rc)) {n : ChainName}
    {ep : Router.ChainEndpoint} (h : Router.getChainInfo (Router.stateAfter rc (routerCalls R l)) n = some ep) :
    ∃ e ∈ l, e.p.target = R ∧ (e.p.msg = .router (.registerChain n ep.gateway) ∨
      e.p.msg = .router (.upgradeGateway n ep.gateway)) := by
  have hg := Router.C18_gateway_history rc (routerCalls R l) n
  rw [h] at hg
  obtain ⟨x, hx, hm⟩ := gatewayAfter_some _ hg.symm
  obtain ⟨e, he, ht, ha⟩ := hi.router_entry hR hx
  obtain ⟨l₁, l₂, hl⟩ := List.append_of_mem he
  subst ht
  obtain ⟨m, r, s', h1, h2, _⟩ := hi.router_call hl hR
  rw [ha] at h2
  simp only [Act.router.injEq] at h2
  rw [h2.1] at hm
  simp only at hm
  refine ⟨e, he, rfl, ?_⟩
  rcases hm with hm | hm
  · left
    rw [hm] at h1
    exact toRouter_other h1 (by simp)
  · right
    rw [hm] at h1
    exact toRouter_other h1 (by simp)

/-- what the router accepts from an account other than the nexus gateway comes from a call of a gateway -/
theorem routed_by_gateway (hi : Inv P setup l w) (hw : Wired setup l R rc nc) (hl : l = l₁ ++ e :: l₂)
    (ht : e.p.target = R) {ms : List Message} (hm : e.p.msg.toRouter = some (.routeMessages ms))
    (hs : e.p.sender ≠ rc.nexusGateway) :
    ∃ g gc, e.p.sender = g ∧ setup g = some (.gateway gc) ∧ ∃ k₁ e' k₂ c s' r, l₁ = k₁ ++ e' :: k₂ ∧
      e'.p.target = g ∧ e'.act = .gateway c r ∧
      c.verifier = askVerifier P (worldOf P setup k₁) gc.verifier ∧
      Gateway.exec (Gateway.stateAfter gc (gatewayCalls g k₁)) c = .ok (s', r) ∧ .route R ms ∈ r.out ∧
      (c, r) ∈ Gateway.history gc (gatewayCalls g l₁) ∧ e.p.msg = .route ms ∧
      ∃ vc, setup gc.verifier = some (.verifier vc) ∧ vc.Valid := by
  have hi₁ := hi.prefix hl
  subst ht
  obtain ⟨msg, r, s', h1, h2, h3⟩ := hi.router_call hl hw.router
  rw [hm] at h1
  simp only [Option.some.injEq] at h1
  subst h1
  obtain ⟨ho, -⟩ := hi.genuine l₁ e l₂ hl
  obtain ⟨n, ep, hep, hg, -, -⟩ : ∃ n ep, Router.getChainInfo (Router.stateAfter rc (routerCalls e.p.target l₁)) n =
      some ep ∧ ep.gateway = e.p.sender ∧ ep.frozenIn .incoming = false ∧ ∀ m ∈ ms, m.ccId.chain = n := by
    rcases ((Router.C19_routed_iff rc _ _ _).mp ⟨_, _, h3⟩).1 with h | h
    · exact absurd h hs
    · exact h
  obtain ⟨er, her, htr, hmr⟩ := registered_entry hi₁ hw.router hep
  obtain ⟨gc, vc, hgc, hvc, hvv⟩ := hw.gateways er (by rw [hl]; exact List.mem_append_left _ her) htr _ _ hmr
  rw [hg] at hgc
  obtain ⟨e', he', ht', hout⟩ := ho.sent (by rw [hgc]; rfl)
  have hk : setup e'.p.target = some (.gateway gc) := by rw [ht']; exact hgc
  obtain ⟨k₁, k₂, hkl⟩ := List.append_of_mem he'
  obtain ⟨gm, gr, gs, g1, g2, g3⟩ := hi₁.gateway_call hkl hk
  obtain ⟨c, r', hact, hhist⟩ := hi₁.gateway_mem hk he'
  rw [g2] at hact hout
  simp only [Act.gateway.injEq] at hact
  obtain ⟨rfl, rfl⟩ := hact
  simp only [Act.outs, List.mem_map] at hout
  obtain ⟨o, ho', hoe⟩ := hout
  cases o with
  | verify dst out =>
    have hmsg : e.p.msg = .verifier (.verifyMessages out) := (Prod.mk.inj hoe).2.symm
    rw [hmsg] at hm
    simp [Msg.toRouter] at hm
  | route dst out =>
    have hmsg : e.p.msg = .route out := (Prod.mk.inj hoe).2.symm
    have hdst : dst = e.p.target := (Prod.mk.inj hoe).1
    rw [hmsg] at hm
    simp only [Msg.toRouter, Option.some.injEq, Router.Msg.routeMessages.injEq] at hm
    subst hm
    rw [hdst] at ho'
    exact ⟨e.p.sender, gc, rfl, hgc, k₁, e', k₂, _, gs, gr, hkl, ht', g2, rfl, ht' ▸ g3, ho', ht' ▸ hhist, hmsg,
      vc, hvc, hvv⟩

/-- where the messages that the router accepts come from -/
theorem routed_source (hi : Inv P setup l w) (hw : Wired setup l R rc nc) (hl : l = l₁ ++ e :: l₂)
    (ht : e.p.target = R) {ms : List Message} (hm : e.p.msg.toRouter = some (.routeMessages ms)) {m : Message}
    (hmem : m ∈ ms) :
    (e.p.sender = rc.nexusGateway ∧ InjectedByNexus l rc.nexusGateway nc m) ∨
      (e.p.sender ≠ rc.nexusGateway ∧ VerifiedAtSource P setup l w R m) := by
  have hi₁ := hi.prefix hl
  subst ht
  obtain ⟨msg, r, s', h1, h2, h3⟩ := hi.router_call hl hw.router
  rw [hm] at h1
  simp only [Option.some.injEq] at h1
  subst h1
  obtain ⟨ho, -⟩ := hi.genuine l₁ e l₂ hl
  by_cases hs : e.p.sender = rc.nexusGateway
  · refine Or.inl ⟨hs, ?_⟩
    obtain ⟨e', he', ht', hout⟩ := ho.sent (by rw [hs, hw.nexus]; rfl)
    have hk : setup e'.p.target = some (.nexus nc) := by rw [ht', hs]; exact hw.nexus
    obtain ⟨k₁, k₂, hkl⟩ := List.append_of_mem he'
    obtain ⟨msg, r, s', g1, g2, g3⟩ := hi₁.nexus_call hkl hk
    rw [g2] at hout
    simp only [Act.outs, List.mem_map] at hout
    obtain ⟨x, hx, hxe⟩ := hout
    have hmsg : e.p.msg = .route x.2 := (Prod.mk.inj hxe).2.symm
    rw [hmsg] at hm
    simp only [Msg.toRouter, Option.some.injEq, Router.Msg.routeMessages.injEq] at hm
    obtain ⟨_, hr, _⟩ := Nexus.C30_effects nc _ _ g3
    obtain ⟨q1, ns, q2, q3, q4⟩ := hr (List.ne_nil_of_mem hx)
    rw [q4, List.mem_singleton] at hx
    rw [hx] at hm
    rw [← hm] at hmem
    obtain ⟨n, hn, rfl⟩ := List.mem_map.mp hmem
    refine ⟨e', by rw [hl]; exact List.mem_append_left _ he', by rw [ht', hs], q1, ns, ?_, n, hn, rfl⟩
    simp only at q2
    rw [q2] at g1
    cases hp : e'.p.msg with
    | nexus y => rw [hp] at g1; simp only [Msg.toNexus, Option.some.injEq] at g1; rw [g1]
    | route y => rw [hp] at g1; simp [Msg.toNexus] at g1
    | _ => rw [hp] at g1; simp [Msg.toNexus] at g1
  · refine Or.inr ⟨hs, ?_⟩
    obtain ⟨ep, hep, hg⟩ := Router.C21_source_authentic rc _ h3 hs m hmem
    obtain ⟨g, gc, rfl, hgc, k₁, e', k₂, c, s2, r2, hkl, ht', hact, hcv, hx, ho', hhist, hmsg, vc, hvc, hvv⟩ :=
      routed_by_gateway hi hw hl rfl hm hs
    obtain ⟨_, _, ms0, ans, r1, r2, r3⟩ := Gateway.C25_history gc _ hhist ho'
    obtain ⟨hm0, hrep⟩ := r3 m hmem
    rw [hcv] at r2
    have hnd : (ms0.map (·.ccId)).Nodup := by
      by_contra hn
      rw [(Gateway.C28_duplicates gc _ _ ms0 (Or.inr r1)).mpr hn] at hx
      simp at hx
    have hik := hi₁.prefix hkl
    have hver : VV.msgStatus P.H (VV.stateAfter P.H vc (verifierCalls gc.verifier k₁)) m = .ok .verified := by
      unfold askVerifier at r2
      rw [hik.verifier_state hvc] at r2
      simp only at r2
      cases hq : VV.isVerified P.H (VV.stateAfter P.H vc (verifierCalls gc.verifier k₁)) ms0 with
      | error x => rw [hq] at r2; simp [answer] at r2
      | ok y =>
        rw [hq] at r2
        simp only [answer, Option.some.injEq] at r2
        subst r2
        exact isVerified_of_reported hnd hq hm0 hrep
    have hask := (askVerifier_one hik hvc).mpr hver
    have h1 : askVerifier P (worldOf P setup l₁) gc.verifier [m] = some [(m.ccId, true)] :=
      verified_later (l₁ := k₁) (l₂ := e' :: k₂) hvv (by rw [← hkl]; exact hi₁) hvc hask
    have h2 : askVerifier P w gc.verifier [m] = some [(m.ccId, true)] :=
      verified_later (l₁ := l₁) (l₂ := e :: l₂) hvv (by rw [← hl]; exact hi) hvc h1
    refine ⟨l₁, e, l₂, ms, e.p.sender, gc, hl, ?_, hmem, ?_, hgc, h1, h2⟩
    · rw [← hmsg]
    · unfold registeredGateway
      rw [hi₁.router_state hw.router]
      simp only [hep, Option.map_some, hg]

/-- what the router sent it had accepted -/
theorem sent_by_router (hi : Inv P setup l w) (hR : setup R = some (.router rc)) (hl : l = l₁ ++ e :: l₂)
    (hs : e.p.sender = R) : ∃ k₁ e' k₂ ms d s' r, l₁ = k₁ ++ e' :: k₂ ∧ e'.p.target = R ∧
      e'.p.msg.toRouter = some (.routeMessages ms) ∧
      Router.exec (Router.stateAfter rc (routerCalls R k₁)) ⟨e'.p.sender, .routeMessages ms⟩ = .ok (s', r) ∧
      d ∈ r.dispatched ∧ e.p.target = d.contract ∧ e.p.msg = .route d.msgs := by
  have hi₁ := hi.prefix hl
  obtain ⟨ho, -⟩ := hi.genuine l₁ e l₂ hl
  obtain ⟨e', he', ht', hout⟩ := ho.sent (by rw [hs, hR]; rfl)
  rw [hs] at ht'
  subst ht'
  obtain ⟨k₁, k₂, hkl⟩ := List.append_of_mem he'
  obtain ⟨rm, rr, rs, g1, g2, g3⟩ := hi₁.router_call hkl hR
  rw [g2] at hout
  simp only [Act.outs, List.mem_map] at hout
  obtain ⟨d, hd, hde⟩ := hout
  obtain ⟨ms', hms'⟩ := dispatch_mem g3 hd
  simp only at hms'
  subst hms'
  exact ⟨k₁, e', k₂, ms', d, rs, rr, hkl, rfl, g1, g3, hd, (Prod.mk.inj hde).1.symm, (Prod.mk.inj hde).2.symm⟩

/-- what a gateway received from the router, the router had accepted -/
theorem delivered_source (hi : Inv P setup l w) (hw : Wired setup l R rc nc) (hl : l = l₁ ++ e :: l₂)
    (hs : e.p.sender = R) {ms : List Message} (hm : e.p.msg = .route ms ∨
      e.p.msg = .gateway (.routeMessages ms) ∨ e.p.msg = .nexus (.routeMessages ms)) {m : Message} (hmem : m ∈ ms) :
    InjectedByNexus l rc.nexusGateway nc m ∨ VerifiedAtSource P setup l w R m := by
  obtain ⟨k₁, e', k₂, ms', d, s', r, hkl, ht', g1, g3, hd, _, hmsg⟩ := sent_by_router hi hw.router hl hs
  have hms : d.msgs = ms := by
    rw [hmsg] at hm
    simpa using hm
  obtain ⟨hcat, _⟩ := Router.C22_conservation rc _ g3
  have hmem' : m ∈ ms' := by
    rw [← hcat, List.mem_flatMap]
    exact ⟨d, hd, by rw [hms]; exact hmem⟩
  exact (routed_source (e := e') (l₁ := k₁) (l₂ := k₂ ++ e :: l₂) hi hw (by rw [hl, hkl]; simp) ht' g1 hmem').imp
    And.right And.right

/-- where an outgoing message comes from -/
theorem outgoing_source (hi : Inv P setup l w) (hw : Wired setup l R rc nc) {G : Addr} {gc : Gateway.Config}
    (hG : setup G = some (.gateway gc)) (hr : gc.router = R) {id : CCId} {m : Message}
    (h : askGateway w G [id] = .ok [m]) :
    m.ccId = id ∧ (InjectedByNexus l rc.nexusGateway nc m ∨ VerifiedAtSource P setup l w R m) := by
  unfold askGateway at h
  rw [hi.gateway_state hG] at h
  simp only [Gateway.getMessages, mapE, Gateway.loadOutgoing] at h
  cases hout : (Gateway.stateAfter gc (gatewayCalls G l)).outgoing id with
  | none => rw [hout] at h; simp at h
  | some m' =>
    rw [hout] at h
    simp only [Except.ok.injEq, List.cons.injEq, and_true] at h
    subst h
    obtain ⟨h1, h2⟩ := Gateway.C27_stored_under_own_id gc _ id m' hout
    refine ⟨h1, ?_⟩
    unfold Gateway.deliveredByRouter at h2
    obtain ⟨x, hx, hmx⟩ := List.mem_flatMap.mp h2
    obtain ⟨e, he, ht, ha⟩ := hi.gateway_entry hG hx
    obtain ⟨l₁, l₂, hl⟩ := List.append_of_mem he
    subst ht
    obtain ⟨gm, gr, gs, g1, g2, g3⟩ := hi.gateway_call hl hG
    rw [ha] at g2
    simp only [Act.gateway.injEq] at g2
    rw [g2.1] at hmx
    simp only at hmx
    cases gm with
    | verifyMessages ms => simp at hmx
    | routeMessages ms =>
      simp only at hmx
      split at hmx
      · rename_i hsr
        refine delivered_source hi hw hl (by rw [hsr, hr]) (ms := ms) ?_ hmx
        cases hp : e.p.msg with
        | gateway y => rw [hp] at g1; simp only [Msg.toGateway, Option.some.injEq] at g1; rw [g1]; simp
        | route y =>
          rw [hp] at g1
          simp only [Msg.toGateway, Option.some.injEq, Gateway.Msg.routeMessages.injEq] at g1
          rw [g1]; simp
        | _ => rw [hp] at g1; simp [Msg.toGateway] at g1
      · simp at hmx

/-- C72: if a gateway whose router is `R` answers a query for outgoing messages with `m`, then the nexus module
injected `m`, or `m` was routed by the gateway registered for its source chain when the verifier of that gateway
reported exactly this message as verified, as it still does. -/
theorem C72_delivered (P : Params) (setup : Setup) (txs : List Tx) (R : Addr) (rc : Router.Config)
    (nc : Nexus.Config) (hw : Wired setup (log P setup txs) R rc nc) (G : Addr) (gc : Gateway.Config)
    (hG : setup G = some (.gateway gc)) (hr : gc.router = R) (id : CCId) (m : Message)
    (h : askGateway (worldAfter P setup txs) G [id] = .ok [m]) :
    m.ccId = id ∧ (InjectedByNexus (log P setup txs) rc.nexusGateway nc m ∨
      VerifiedAtSource P setup (log P setup txs) (worldAfter P setup txs) R m) := by
  exact outgoing_source (inv P setup txs) hw hG hr h

/-- the router sends messages to the nexus gateway only if they came from a gateway -/
theorem to_nexus_source (hi : Inv P setup l w) (hw : Wired setup l R rc nc) (hl : l = l₁ ++ e :: l₂)
    (hs : e.p.sender = R) (ht : e.p.target = rc.nexusGateway) :
    ∃ ms, e.p.msg = .route ms ∧ (ms.map (·.ccId)).Nodup ∧ ∀ m ∈ ms, VerifiedAtSource P setup l w R m := by
  obtain ⟨k₁, e', k₂, ms', d, s', r, hkl, ht', g1, g3, hd, hdc, hmsg⟩ := sent_by_router hi hw.router hl hs
  have hl' : l = k₁ ++ e' :: (k₂ ++ e :: l₂) := by rw [hl, hkl]; simp
  have hik := hi.prefix hl'
  obtain ⟨hcat, _, hdis⟩ := Router.C22_conservation rc _ g3
  obtain ⟨hne, n, hn, hrec⟩ := hdis d hd
  have hsub : d.msgs.Sublist ms' := by
    rw [← hcat]
    obtain ⟨a, b, hab⟩ := List.append_of_mem hd
    rw [hab, List.flatMap_append, List.flatMap_cons]
    exact (List.sublist_append_left d.msgs _).trans (List.sublist_append_right _ _)
  have hnone : Router.getChainInfo (Router.stateAfter rc (routerCalls R k₁)) n = none := by
    cases hep : Router.getChainInfo (Router.stateAfter rc (routerCalls R k₁)) n with
    | none => rfl
    | some ep =>
      exfalso
      obtain ⟨er, her, htr, hmr⟩ := registered_entry hik hw.router hep
      obtain ⟨gc, vc, hgc, _⟩ := hw.gateways er (by rw [hl']; exact List.mem_append_left _ her) htr _ _ hmr
      have : ep.gateway = rc.nexusGateway := by
        unfold Router.recipient at hrec
        rw [hep] at hrec
        simp only at hrec
        rw [← hrec, ← hdc, ht]
      rw [this, hw.nexus] at hgc
      simp at hgc
  have hsn : e'.p.sender ≠ rc.nexusGateway := by
    obtain ⟨m, hm⟩ := List.exists_mem_of_ne_nil _ hne
    rcases ((Router.C19_routed_iff rc _ _ _).mp ⟨_, _, g3⟩).2 m (hsub.subset hm) with ⟨ep, h, _⟩ | ⟨_, h⟩
    · rw [hn m hm, hnone] at h; simp at h
    · exact h
  obtain ⟨g, gc, rfl, hgc, _, _, _, c, s2, r2, _, _, _, _, hx, ho', _, _⟩ := routed_by_gateway hi hw hl' ht' g1 hsn
  have hnd := Gateway.C28_forwarded_distinct gc _ c hx (Or.inl ho')
  refine ⟨d.msgs, hmsg, hnd.sublist (hsub.map _), ?_⟩
  intro m hm
  rcases routed_source hi hw hl' ht' g1 (hsub.subset hm) with ⟨h, _⟩ | ⟨_, h⟩
  · exact absurd h hsn
  · exact h

/-- C72, the other way: what the nexus gateway hands to the nexus module was routed by the gateway registered for
its source chain when the verifier reported it as verified. -/
theorem C72_to_nexus (P : Params) (setup : Setup) (txs : List Tx) (R : Addr) (rc : Router.Config)
    (nc : Nexus.Config) (hw : Wired setup (log P setup txs) R rc nc) (hn : nc.router = R) (e : Entry)
    (he : e ∈ log P setup txs) (ht : e.p.target = rc.nexusGateway) (c : Nexus.Call) (r : Nexus.Resp)
    (ha : e.act = .nexus c r) :
    r.toModule = r.forwarded.map Nexus.toNexus ∧
      ∀ m ∈ r.forwarded, VerifiedAtSource P setup (log P setup txs) (worldAfter P setup txs) R m := by
  have hi := inv P setup txs
  obtain ⟨l₁, l₂, hl⟩ := List.append_of_mem he
  have hk : setup e.p.target = some (.nexus nc) := by rw [ht]; exact hw.nexus
  obtain ⟨m, r', s', h1, h2, h3⟩ := hi.nexus_call hl hk
  rw [ha] at h2
  simp only [Act.nexus.injEq] at h2
  obtain ⟨rfl, rfl⟩ := h2
  have hcfg := (Nexus.routed_iff nc (nexusCalls e.p.target l₁) ⟨[], []⟩).1
  rcases Nexus.exec_cases h3 with ⟨ms, hm, hs, hr, _⟩ | ⟨ns, _, _, _, hr⟩
  · rw [hr]
    refine ⟨rfl, ?_⟩
    intro x hx
    simp only at hm hs hx
    rw [hcfg, hn] at hs
    obtain ⟨ms', hmsg, _, hall⟩ := to_nexus_source hi hw hl hs ht
    rw [hmsg, hm] at h1
    simp only [Msg.toNexus, Option.some.injEq, Nexus.Msg.routeMessages.injEq] at h1
    rw [h1] at hall
    exact hall x (List.mem_filter.mp hx).1
  · rw [hr]
    exact ⟨rfl, by simp⟩

/-- C29 without restriction, for the nexus gateway in its place: each id is handed to the nexus module at most
once. -/
theorem C29_at_most_once (P : Params) (setup : Setup) (txs : List Tx) (R : Addr) (rc : Router.Config)
    (nc : Nexus.Config) (hw : Wired setup (log P setup txs) R rc nc) (hn : nc.router = R) :
    (Nexus.forwardedIds (Nexus.history nc (nexusCalls rc.nexusGateway (log P setup txs)))).Nodup := by
  have hi := inv P setup txs
  apply Nexus.C29_at_most_once_partial
  intro c hc ms hm
  obtain ⟨x, hx, hxc⟩ := List.mem_filterMap.mp hc
  obtain ⟨e, he, ht, ha⟩ := mem_actsAt hx
  obtain ⟨l₁, l₂, hl⟩ := List.append_of_mem he
  have hk : setup e.p.target = some (.nexus nc) := by rw [ht]; exact hw.nexus
  obtain ⟨m, r', s', h1, h2, h3⟩ := hi.nexus_call hl hk
  rw [← ha, h2] at hxc
  simp only [Act.nexusCall?, Option.some.injEq] at hxc
  subst hxc
  simp only at hm
  subst hm
  have hs := (Nexus.C30_access nc (nexusCalls e.p.target l₁) ⟨e.p.sender, .routeMessages ms⟩).1.mp ⟨_, _, h3⟩
  simp only at hs
  obtain ⟨ms', hmsg, hnd, _⟩ := to_nexus_source hi hw hl (by rw [hs, hn]) ht
  rw [hmsg] at h1
  simp only [Msg.toNexus, Option.some.injEq, Nexus.Msg.routeMessages.injEq] at h1
  rw [← h1]
  exact hnd

end Amp.Chain
