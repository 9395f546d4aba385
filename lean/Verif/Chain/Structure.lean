import Verif.Chain.Model
import Verif.Prover.SetProps

/-!
# What a history of the whole chain looks like from one contract

The log of all calls of all contracts determines the storage of each; each call was sent from outside or by a call
before it, and saw the storage of the other contracts as it was at that moment.
-/

namespace Amp.Chain

open Amp.Router (ChainName CCId Message)

/-- the successful calls of a history of transactions, in order -/
def log (P : Params) (setup : Setup) (txs : List Tx) : List Entry :=
  (outs (exec P) (genesis setup) txs).flatMap Prod.snd

/-- the storage after a history of transactions -/
def worldAfter (P : Params) (setup : Setup) (txs : List Tx) : World := runCalls (exec P) (genesis setup) txs

/-- what was done at one address -/
def actsAt (a : Addr) (l : List Entry) : List Act := (l.filter (fun e => e.p.target = a)).map Entry.act

/-! the calls of each kind -/

def Act.verifierCall? : Act → Option VV.Call
  | .verifier c _ => some c
  | _ => none

def Act.gatewayCall? : Act → Option Gateway.Call
  | .gateway c _ => some c
  | _ => none

def Act.routerCall? : Act → Option Router.Call
  | .router c _ => some c
  | _ => none

def Act.nexusCall? : Act → Option Nexus.Call
  | .nexus c _ => some c
  | _ => none

def Act.registryCall? : Act → Option Registry.Call
  | .registry c _ => some c
  | _ => none

def Act.rewardsCall? : Act → Option Rewards.Call
  | .rewards c _ => some c
  | _ => none

def Act.multisigCall? : Act → Option Multisig.Call
  | .multisig c _ => some c
  | _ => none

def Act.proverCall? : Act → Option Prover.Call
  | .prover _ c _ => some c
  | _ => none

/-- the storage of a contract after the given calls -/
def replay (P : Params) : Kind → List Act → Store
  | .verifier cfg, l => .verifier (runCalls (VV.exec P.H) (VV.init cfg) (l.filterMap Act.verifierCall?))
  | .gateway cfg, l => .gateway (runCalls Gateway.exec (Gateway.init cfg) (l.filterMap Act.gatewayCall?))
  | .router cfg, l => .router (runCalls Router.exec (Router.init cfg) (l.filterMap Act.routerCall?))
  | .nexus cfg, l => .nexus (runCalls Nexus.exec (Nexus.init cfg) (l.filterMap Act.nexusCall?))
  | .registry g, l => .registry (runCalls Registry.exec (Registry.init g) (l.filterMap Act.registryCall?))
  | .rewards cfg p h, l => .rewards (runCalls Rewards.exec (Rewards.init cfg p h) (l.filterMap Act.rewardsCall?))
  | .multisig cfg, l => .multisig (runCalls (Multisig.exec P.C (Prover.workerSetId P.X)) (Multisig.init cfg)
      (l.filterMap Act.multisigCall?))
  | .prover cfg sv kt, l => .prover (runCalls (Prover.exec P.X) (Prover.init cfg) (l.filterMap Act.proverCall?)) sv kt

/-- the acts are the calls of a history of the contract, with the responses it gives -/
def Matches (P : Params) : Kind → List Act → Prop
  | .verifier cfg, l => l = (outs (VV.exec P.H) (VV.init cfg) (l.filterMap Act.verifierCall?)).map
      (fun e => .verifier e.1 e.2)
  | .gateway cfg, l => l = (outs Gateway.exec (Gateway.init cfg) (l.filterMap Act.gatewayCall?)).map
      (fun e => .gateway e.1 e.2)
  | .router cfg, l => l = (outs Router.exec (Router.init cfg) (l.filterMap Act.routerCall?)).map
      (fun e => .router e.1 e.2)
  | .nexus cfg, l => l = (outs Nexus.exec (Nexus.init cfg) (l.filterMap Act.nexusCall?)).map
      (fun e => .nexus e.1 e.2)
  | .registry g, l => l = (outs Registry.exec (Registry.init g) (l.filterMap Act.registryCall?)).map
      (fun e => .registry e.1 e.2)
  | .rewards cfg p h, l => l = (outs Rewards.exec (Rewards.init cfg p h) (l.filterMap Act.rewardsCall?)).map
      (fun e => .rewards e.1 e.2)
  | .multisig cfg, l => l = (outs (Multisig.exec P.C (Prover.workerSetId P.X)) (Multisig.init cfg)
      (l.filterMap Act.multisigCall?)).map (fun e => .multisig e.1 e.2)
  | .prover cfg _ _, l => l = (outs (Prover.exec P.X) (Prover.init cfg) (l.filterMap Act.proverCall?)).map
      (fun e => .prover cfg.multisig e.1 e.2)

/-- the storage of all contracts after the given calls -/
def worldOf (P : Params) (setup : Setup) (l : List Entry) : World :=
  fun a => (setup a).map (fun k => replay P k (actsAt a l))

/-- A message comes from outside, or a call before sent it. -/
def Origin (setup : Setup) (l : List Entry) (p : Pending) : Prop :=
  setup p.sender = none ∨ ∃ e ∈ l, p ∈ e.sent

/-- An entry of the log, given those before it. -/
def Genuine (P : Params) (setup : Setup) (l : List Entry) (e : Entry) : Prop :=
  Origin setup l e.p ∧ ∃ b reply s', call P b (worldOf P setup l) e.p reply = .ok (s', e.act)

/-- log and storage agree -/
structure Inv (P : Params) (setup : Setup) (l : List Entry) (w : World) : Prop where
  world : w = worldOf P setup l
  acts : ∀ a k, setup a = some k → Matches P k (actsAt a l)
  genuine : ∀ l₁ e l₂, l = l₁ ++ e :: l₂ → Genuine P setup l₁ e

theorem actsAt_append (a : Addr) (l l' : List Entry) : actsAt a (l ++ l') = actsAt a l ++ actsAt a l' := by
  simp [actsAt]

theorem actsAt_self (a : Addr) (e : Entry) (h : e.p.target = a) : actsAt a [e] = [e.act] := by
  simp [actsAt, h]

theorem actsAt_other (a : Addr) (e : Entry) (h : e.p.target ≠ a) : actsAt a [e] = [] := by
  simp [actsAt, h]

theorem runCalls_snoc {S C R E : Type} {exec : S → C → Except E (S × R)} {s s' : S} {cs : List C} {c : C} {r : R}
    (h : exec (runCalls exec s cs) c = .ok (s', r)) : runCalls exec s (cs ++ [c]) = s' := by
  rw [runCalls_append, runCalls_cons, h]
  rfl

theorem outs_snoc {S C R E : Type} {exec : S → C → Except E (S × R)} {s s' : S} {cs : List C} {c : C} {r : R}
    (h : exec (runCalls exec s cs) c = .ok (s', r)) : outs exec s (cs ++ [c]) = outs exec s cs ++ [(c, r)] := by
  rw [outs_append, outs_cons_ok exec h]
  rfl

/-- a call adds to the history of the contract called -/
theorem call_sound {P : Params} {setup : Setup} {l : List Entry} {b : Block} {p : Pending}
    {reply : Option (Option Nat)} {s' : Store} {act : Act} {k : Kind}
    (hk : setup p.target = some k) (hm : Matches P k (actsAt p.target l))
    (h : call P b (worldOf P setup l) p reply = .ok (s', act)) :
    replay P k (actsAt p.target l ++ [act]) = s' ∧ Matches P k (actsAt p.target l ++ [act]) := by
  have hw : worldOf P setup l p.target = some (replay P k (actsAt p.target l)) := by simp [worldOf, hk]
  unfold call at h
  rw [hw] at h
  cases k with
  | verifier cfg =>
    simp only [replay, Matches] at h hm ⊢
    cases hmsg : p.msg with
    | verifier m =>
      rw [hmsg] at h
      simp only at h
      split at h
      · simp at h
      rename_i s1 r hx
      simp only [Except.ok.injEq, Prod.mk.injEq] at h
      obtain ⟨rfl, rfl⟩ := h
      rw [List.filterMap_append]
      constructor
      · exact congrArg _ (runCalls_snoc hx)
      · rw [show List.filterMap Act.verifierCall? [Act.verifier _ r] = [_] from rfl, outs_snoc hx, List.map_append,
          ← hm]
        rfl
    | _ => rw [hmsg] at h; simp at h
  | gateway cfg =>
    simp only [replay, Matches] at h hm ⊢
    cases hmsg : p.msg.toGateway with
    | some m =>
      rw [hmsg] at h
      simp only at h
      split at h
      · simp at h
      rename_i s1 r hx
      simp only [Except.ok.injEq, Prod.mk.injEq] at h
      obtain ⟨rfl, rfl⟩ := h
      rw [List.filterMap_append]
      constructor
      · exact congrArg _ (runCalls_snoc hx)
      · rw [show List.filterMap Act.gatewayCall? [Act.gateway _ r] = [_] from rfl, outs_snoc hx, List.map_append,
          ← hm]
        rfl
    | none => rw [hmsg] at h; simp at h
  | router cfg =>
    simp only [replay, Matches] at h hm ⊢
    cases hmsg : p.msg.toRouter with
    | some m =>
      rw [hmsg] at h
      simp only at h
      split at h
      · simp at h
      rename_i s1 r hx
      simp only [Except.ok.injEq, Prod.mk.injEq] at h
      obtain ⟨rfl, rfl⟩ := h
      rw [List.filterMap_append]
      constructor
      · exact congrArg _ (runCalls_snoc hx)
      · rw [show List.filterMap Act.routerCall? [Act.router _ r] = [_] from rfl, outs_snoc hx, List.map_append,
          ← hm]
        rfl
    | none => rw [hmsg] at h; simp at h
  | nexus cfg =>
    simp only [replay, Matches] at h hm ⊢
    cases hmsg : p.msg.toNexus with
    | some m =>
      rw [hmsg] at h
      simp only at h
      split at h
      · simp at h
      rename_i s1 r hx
      simp only [Except.ok.injEq, Prod.mk.injEq] at h
      obtain ⟨rfl, rfl⟩ := h
      rw [List.filterMap_append]
      constructor
      · exact congrArg _ (runCalls_snoc hx)
      · rw [show List.filterMap Act.nexusCall? [Act.nexus _ r] = [_] from rfl, outs_snoc hx, List.map_append,
          ← hm]
        rfl
    | none => rw [hmsg] at h; simp at h
  | registry g =>
    simp only [replay, Matches] at h hm ⊢
    cases hmsg : p.msg with
    | registry m =>
      rw [hmsg] at h
      simp only at h
      split at h
      · simp at h
      rename_i s1 r hx
      simp only [Except.ok.injEq, Prod.mk.injEq] at h
      obtain ⟨rfl, rfl⟩ := h
      rw [List.filterMap_append]
      constructor
      · exact congrArg _ (runCalls_snoc hx)
      · rw [show List.filterMap Act.registryCall? [Act.registry _ r] = [_] from rfl, outs_snoc hx, List.map_append,
          ← hm]
        rfl
    | _ => rw [hmsg] at h; simp at h
  | rewards cfg pr ht =>
    simp only [replay, Matches] at h hm ⊢
    cases hmsg : p.msg with
    | rewards m =>
      rw [hmsg] at h
      simp only at h
      split at h
      · simp at h
      rename_i s1 r hx
      simp only [Except.ok.injEq, Prod.mk.injEq] at h
      obtain ⟨rfl, rfl⟩ := h
      rw [List.filterMap_append]
      constructor
      · exact congrArg _ (runCalls_snoc hx)
      · rw [show List.filterMap Act.rewardsCall? [Act.rewards _ r] = [_] from rfl, outs_snoc hx, List.map_append,
          ← hm]
        rfl
    | _ => rw [hmsg] at h; simp at h
  | multisig cfg =>
    simp only [replay, Matches] at h hm ⊢
    cases hmsg : p.msg with
    | multisig m =>
      rw [hmsg] at h
      simp only at h
      split at h
      · simp at h
      rename_i s1 r hx
      simp only [Except.ok.injEq, Prod.mk.injEq] at h
      obtain ⟨rfl, rfl⟩ := h
      rw [List.filterMap_append]
      constructor
      · exact congrArg _ (runCalls_snoc hx)
      · rw [show List.filterMap Act.multisigCall? [Act.multisig _ r] = [_] from rfl, outs_snoc hx, List.map_append,
          ← hm]
        rfl
    | _ => rw [hmsg] at h; simp at h
  | prover cfg sv kt =>
    have hc := Prover.config_stateAfter P.X cfg ((actsAt p.target l).filterMap Act.proverCall?)
    unfold Prover.stateAfter at hc
    simp only [replay, Matches] at h hm ⊢
    cases hmsg : p.msg with
    | prover m =>
      rw [hmsg] at h
      simp only at h
      split at h
      · simp at h
      rename_i s1 r hx
      simp only [Except.ok.injEq, Prod.mk.injEq] at h
      obtain ⟨rfl, rfl⟩ := h
      rw [List.filterMap_append]
      constructor
      · rw [show List.filterMap Act.proverCall? [Act.prover _ _ r] = [_] from rfl, runCalls_snoc hx]
      · rw [show List.filterMap Act.proverCall? [Act.prover _ _ r] = [_] from rfl, outs_snoc hx, List.map_append,
          ← hm, hc]
        rfl
    | _ => rw [hmsg] at h; simp at h

theorem call_target {P : Params} {b : Block} {w : World} {p : Pending} {reply : Option (Option Nat)}
    {x : Store × Act} (h : call P b w p reply = .ok x) : (w p.target).isSome := by
  cases hw : w p.target with
  | none => simp [call, hw] at h
  | some _ => rfl

theorem worldOf_snoc {P : Params} {setup : Setup} {l : List Entry} {e : Entry} {k : Kind} {s' : Store}
    (hk : setup e.p.target = some k) (hr : replay P k (actsAt e.p.target l ++ [e.act]) = s') :
    (worldOf P setup l).set e.p.target s' = worldOf P setup (l ++ [e]) := by
  funext a
  by_cases ha : a = e.p.target
  · subst ha
    rw [KV.set_self]
    simp only [worldOf, hk, Option.map_some, actsAt_append, actsAt_self _ e rfl, hr]
  · rw [KV.set_ne _ _ ha]
    simp only [worldOf, actsAt_append, actsAt_other _ e (Ne.symm ha), List.append_nil]

theorem Origin.mono {setup : Setup} {l l' : List Entry} {p : Pending} (h : Origin setup l p) :
    Origin setup (l ++ l') p := by
  rcases h with h | ⟨e, he, hp⟩
  · exact Or.inl h
  · exact Or.inr ⟨e, List.mem_append_left _ he, hp⟩

theorem Inv.snoc {P : Params} {setup : Setup} {l : List Entry} {w : World} (hi : Inv P setup l w) {b : Block}
    {p : Pending} (ho : Origin setup l p) {reply : Option (Option Nat)} {s' : Store} {act : Act}
    (h : call P b w p reply = .ok (s', act)) : Inv P setup (l ++ [⟨p, act⟩]) (w.set p.target s') := by
  have hw := hi.world
  subst hw
  have ht := call_target h
  cases hk : setup p.target with
  | none => simp [worldOf, hk] at ht
  | some k =>
    obtain ⟨h1, h2⟩ := call_sound hk (hi.acts _ _ hk) h
    refine ⟨?_, ?_, ?_⟩
    · exact worldOf_snoc (e := ⟨p, act⟩) hk h1
    · intro a k' hk'
      rw [actsAt_append]
      by_cases ha : a = p.target
      · subst ha
        rw [hk] at hk'
        cases hk'
        rw [actsAt_self _ ⟨p, act⟩ rfl]
        exact h2
      · rw [actsAt_other _ ⟨p, act⟩ (Ne.symm ha), List.append_nil]
        exact hi.acts a k' hk'
    · intro l₁ e l₂ hl
      rcases List.eq_nil_or_concat l₂ with rfl | ⟨t, x, rfl⟩
      · obtain ⟨rfl, hx⟩ := List.append_inj' hl rfl
        cases hx
        exact ⟨ho, b, reply, s', h⟩
      · rw [List.concat_eq_append, ← List.cons_append, ← List.append_assoc] at hl
        obtain ⟨hl1, hx⟩ := List.append_inj' hl rfl
        exact hi.genuine l₁ e t hl1

theorem call_multisig_store {P : Params} {b : Block} {w : World} {q : Pending} {reply : Option (Option Nat)}
    {ms : Store} {mc : Multisig.Call} {mr : Multisig.Resp} (h : call P b w q reply = .ok (ms, .multisig mc mr)) :
    ∃ s, w q.target = some (.multisig s) := by
  cases hw : w q.target with
  | none => simp [call, hw] at h
  | some st =>
    unfold call at h
    rw [hw] at h
    cases st with
    | multisig s => exact ⟨s, rfl⟩
    | gateway s | router s | nexus s =>
      simp only at h
      split at h
      · split at h <;> simp at h
      · simp at h
    | verifier s | registry s | rewards s | prover s sv kt =>
      simp only at h
      split at h
      · split at h <;> simp at h
      · simp at h

theorem call_multisig_congr {P : Params} {b : Block} {w w' : World} {q : Pending} {reply : Option (Option Nat)}
    {s : Multisig.State} (h : w q.target = some (.multisig s)) (h' : w' q.target = some (.multisig s)) :
    call P b w q reply = call P b w' q reply := by
  unfold call
  rw [h, h']

/-- what the prover sends is what `handle` says -/
theorem exec_out {X : Encoding.Ext} {s s' s1 : Prover.State} {c : Prover.Call} {r : Prover.Resp} {out : Prover.Out}
    (h : Prover.exec X s c = .ok (s', r)) (ho : Prover.handle X s c.env c.msg = .ok (s1, out)) : r.out = out := by
  unfold Prover.exec at h
  rw [ho] at h
  simp only at h
  split at h
  · simp at h
  · cases out with
    | registerWorkerSet ws =>
      simp only [Except.ok.injEq, Prod.mk.injEq] at h
      rw [← h.2]
    | startSigning a m ch =>
      simp only at h
      split at h
      · simp at h
      · simp only [Except.ok.injEq, Prod.mk.injEq] at h
        rw [← h.2]

/-- a call of the prover sends its message to the multisig contract -/
theorem call_prover_sent {P : Params} {b : Block} {w : World} {p : Pending} {reply : Option (Option Nat)}
    {x : Store × Act} {s : Prover.State} {sv : Str} {kt : Multisig.KeyType} {m : Prover.Msg}
    (hw : w p.target = some (.prover s sv kt)) (hm : p.msg = .prover m) (h : call P b w p reply = .ok x)
    {s1 : Prover.State} {out : Prover.Out} (ho : Prover.handle P.X s (proverEnv P w b s.config sv kt) m = .ok (s1, out)) :
    (⟨p.target, s.config.multisig, [], .multisig out.toMultisig⟩ : Pending) ∈ Entry.sent ⟨p, x.2⟩ := by
  unfold call at h
  rw [hw, hm] at h
  simp only at h
  split at h
  · simp at h
  rename_i s' r hx
  simp only [Except.ok.injEq] at h
  subst h
  simp only [Entry.sent, Act.outs, List.map_cons, List.map_nil, List.mem_singleton]
  rw [exec_out hx ho]

theorem deliver_inv {P : Params} {setup : Setup} {l : List Entry} {w : World} (hi : Inv P setup l w) {b : Block}
    {p : Pending} (ho : Origin setup l p) {w' : World} {es : List Entry} {out : List Pending}
    (h : deliver P b w p = .ok (w', es, out)) :
    Inv P setup (l ++ es) w' ∧ ∀ q ∈ out, Origin setup (l ++ es) q := by
  have simple : ∀ s' a, call P b w p none = .ok (s', a) →
      Inv P setup (l ++ [⟨p, a⟩]) (w.set p.target s') ∧ ∀ q ∈ Entry.sent ⟨p, a⟩, Origin setup (l ++ [⟨p, a⟩]) q :=
    fun s' a hx => ⟨hi.snoc ho hx, fun q hq => Or.inr ⟨_, List.mem_append_right _ (List.mem_cons_self ..), hq⟩⟩
  unfold deliver at h
  cases hw : w p.target with
  | none =>
    rw [hw] at h
    simp only [call, hw] at h
    simp at h
  | some st =>
    rw [hw] at h
    cases st with
    | prover s sv kt =>
      simp only at h
      cases hm : p.msg with
      | prover m =>
        rw [hm] at h
        simp only at h
        cases hh : Prover.handle P.X s (proverEnv P w b s.config sv kt) m with
        | error e => rw [hh] at h; simp at h
        | ok y =>
          obtain ⟨s1, o⟩ := y
          rw [hh] at h
          simp only at h
          obtain ⟨q, hq⟩ : ∃ q : Pending, q = ⟨p.target, s.config.multisig, [], .multisig o.toMultisig⟩ := ⟨_, rfl⟩
          rw [← hq] at h
          split at h
          · rename_i ms mc mr hcm
            cases hcp : call P b w p (some mr.data) with
            | error e => rw [hcp] at h; simp at h
            | ok y =>
              obtain ⟨s', a⟩ := y
              rw [hcp] at h
              simp only [Except.ok.injEq, Prod.mk.injEq] at h
              obtain ⟨rfl, rfl, rfl⟩ := h
              have hi1 := hi.snoc ho hcp
              have hsent : q ∈ Entry.sent ⟨p, a⟩ := by rw [hq]; exact call_prover_sent hw hm hcp hh
              have ho1 : Origin setup (l ++ [⟨p, a⟩]) q :=
                Or.inr ⟨_, List.mem_append_right _ (List.mem_cons_self ..), hsent⟩
              obtain ⟨sm, hsm⟩ := call_multisig_store hcm
              have hne : q.target ≠ p.target := by
                intro he
                rw [he, hw] at hsm
                simp at hsm
              have hcm' : call P b (w.set p.target s') q none = .ok (ms, .multisig mc mr) := by
                rw [← hcm]
                exact call_multisig_congr (s := sm) (by rw [KV.set_ne _ _ hne, hsm]) hsm
              have hi2 := hi1.snoc ho1 hcm'
              have htq : q.target = s.config.multisig := by rw [hq]
              rw [htq] at hi2
              have hl : l ++ [⟨p, a⟩, ⟨q, .multisig mc mr⟩] = l ++ [⟨p, a⟩] ++ [⟨q, .multisig mc mr⟩] := by simp
              rw [hl]
              exact ⟨hi2, fun x hx => Or.inr ⟨_, List.mem_append_right _ (List.mem_cons_self ..), hx⟩⟩
          · simp at h
      | _ => rw [hm] at h; simp at h
    | verifier s | gateway s | router s | nexus s | registry s | rewards s | multisig s =>
      simp only at h
      cases hc : call P b w p none with
      | error e => rw [hc] at h; simp at h
      | ok y =>
        obtain ⟨s', a⟩ := y
        rw [hc] at h
        simp only [Except.ok.injEq, Prod.mk.injEq] at h
        obtain ⟨rfl, rfl, rfl⟩ := h
        exact simple s' a hc

theorem run_inv {P : Params} {setup : Setup} {b : Block} {accepts : Addr → Bool} (n : Nat) :
    ∀ {l : List Entry} {w w' : World} {ps : List Pending} {es : List Entry}, Inv P setup l w →
      (∀ p ∈ ps, Origin setup l p) → run P b accepts n w ps = .ok (w', es) → Inv P setup (l ++ es) w' := by
  induction n with
  | zero =>
    intro l w w' ps es hi ho h
    cases ps with
    | nil =>
      simp only [run, Except.ok.injEq, Prod.mk.injEq] at h
      obtain ⟨rfl, rfl⟩ := h
      simpa using hi
    | cons p t => simp [run] at h
  | succ n ih =>
    intro l w w' ps es hi ho h
    cases ps with
    | nil =>
      simp only [run, Except.ok.injEq, Prod.mk.injEq] at h
      obtain ⟨rfl, rfl⟩ := h
      simpa using hi
    | cons p t =>
      rw [run] at h
      split at h
      · exact ih hi (fun q hq => ho q (List.mem_cons_of_mem _ hq)) h
      · cases hd : deliver P b w p with
        | error e => rw [hd] at h; simp at h
        | ok y =>
          obtain ⟨w1, es1, out⟩ := y
          rw [hd] at h
          simp only at h
          obtain ⟨hi1, ho1⟩ := deliver_inv hi (ho p (List.mem_cons_self ..)) hd
          cases hr : run P b accepts n w1 (out ++ t) with
          | error e => rw [hr] at h; simp at h
          | ok z =>
            obtain ⟨w2, es2⟩ := z
            rw [hr] at h
            simp only [Except.ok.injEq, Prod.mk.injEq] at h
            obtain ⟨rfl, rfl⟩ := h
            rw [← List.append_assoc]
            refine ih hi1 ?_ hr
            intro q hq
            rcases List.mem_append.mp hq with hq | hq
            · exact ho1 q hq
            · exact (ho q (List.mem_cons_of_mem _ hq)).mono

theorem Inv.genesis (P : Params) (setup : Setup) : Inv P setup [] (genesis setup) := by
  refine ⟨?_, ?_, ?_⟩
  · funext a
    simp only [Chain.genesis, worldOf]
    cases setup a with
    | none => rfl
    | some k => cases k <;> rfl
  · intro a k _
    cases k <;> rfl
  · intro l₁ e l₂ h
    simp at h

/-- log and storage agree after every history -/
theorem inv (P : Params) (setup : Setup) (txs : List Tx) :
    Inv P setup (log P setup txs) (worldAfter P setup txs) := by
  refine outs_inv (exec P) (P := fun lg w => Inv P setup (lg.flatMap Prod.snd) w) (genesis setup)
    (Inv.genesis P setup) ?_ txs
  intro lg w tx w' es hi h
  rw [List.flatMap_append]
  simp only [List.flatMap_cons, List.flatMap_nil, List.append_nil]
  unfold exec at h
  split at h
  · simp at h
  · rename_i hs
    refine run_inv _ hi ?_ h
    intro p hp
    obtain ⟨m, _, rfl⟩ := List.mem_map.mp hp
    left
    rw [hi.world] at hs
    simp only [worldOf, Option.isSome_map, Bool.not_eq_true, Option.isSome_eq_false_iff, Option.isNone_iff_eq_none] at hs
    exact hs

end Amp.Chain
