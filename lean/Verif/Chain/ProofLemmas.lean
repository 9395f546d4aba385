import Verif.Chain.ProverProps
import Verif.Chain.RecordProps
import Verif.Prover.Progress
import Verif.Ampd.SigningProps
import Mathlib.Data.List.Induction

/-!
# Proofs of delivered messages: helper lemmas
-/

namespace Amp.Chain

open Amp.Router (ChainName CCId Message)
open Amp.Multisig (WorkerSet)
open Amp.Prover (Sys SysResp sysAfter sysLog sysExec sysInit builtSets KeysSized makeWorkerSet)

variable {P : Params} {setup : Setup} {l l₁ l₂ : List Entry} {w w' : World} {R Q : Addr} {e : Entry}
  {rc : Router.Config} {nc : Nexus.Config} {pc : Prover.Config} {sv : Str} {kt : Multisig.KeyType}
  {mc : Multisig.Config}

/-! ### Worker sets -/

/-- active workers are listed once and are bonded -/
theorem askWorkers_distinct (hi : Inv P setup l w) {a : Addr} {service : Str} {chain : ChainName}
    {workers : List Registry.Worker} (h : askWorkers w a service chain = some workers) :
    (workers.map (·.address)).Nodup ∧ ∀ x ∈ workers, ∃ n, x.bonding = .bonded n := by
  rw [hi.world] at h
  unfold askWorkers worldOf at h
  cases hs : setup a with
  | none => rw [hs] at h; simp at h
  | some k =>
    rw [hs] at h
    cases k with
    | registry gov =>
      simp only [Option.map_some, replay] at h
      change answer (Registry.getActiveWorkers (Registry.stateAfter gov (registryCalls a l)) service chain) = _ at h
      cases hf : Registry.findService (Registry.stateAfter gov (registryCalls a l)).services service with
      | none =>
        simp [Registry.getActiveWorkers, hf, answer] at h
      | some svc =>
        obtain ⟨ws, h1, h2, h3, _⟩ := Registry.C34_active_workers gov (registryCalls a l) service chain svc hf
        rw [h1] at h
        simp only [answer, Option.some.injEq] at h
        subst h
        refine ⟨h2.imp (fun h => ne_of_lt h), ?_⟩
        intro x hx
        obtain ⟨_, _, ⟨n, hn, _⟩, _⟩ := (h3 x).mp hx
        exact ⟨n, hn⟩
    | _ => simp [replay] at h

/-- keys have the lengths of keys -/
theorem askKey_length (hi : Inv P setup l w) {a x : Addr} {k : Multisig.PublicKey}
    (h : askKey w a kt x = .ok k) : k.bytes.length ≤ 65 := by
  rw [hi.world] at h
  unfold askKey worldOf at h
  cases hs : setup a with
  | none => rw [hs] at h; simp at h
  | some kd =>
    rw [hs] at h
    cases kd with
    | multisig mc =>
      simp only [Option.map_some, replay] at h
      cases hg : Multisig.getPublicKey (Multisig.stateAfter P.C (Prover.workerSetId P.X) mc (multisigCalls a l)) x kt with
      | error e =>
        unfold Multisig.stateAfter multisigCalls at hg
        rw [hg] at h
        simp at h
      | ok k' =>
        have hk := (Multisig.C51_registered_key (C := P.C) (idOf := Prover.workerSetId P.X) (cfg := mc)
          (multisigCalls a l) x kt).2.1 k' hg
        unfold Multisig.stateAfter multisigCalls at hg
        rw [hg] at h
        simp only [Except.ok.injEq] at h
        subst h
        cases kt <;> simp only [Multisig.keyLength] at hk <;> omega
    | _ => simp [replay] at h

/-- what is known of a worker set that the prover at `Q` made -/
structure Fits (ws : WorkerSet) : Prop where
  ones : ∀ e ∈ ws.signers, e.2.weight = 1
  threshold : ws.threshold ≤ ws.signers.length
  keys : KeysSized ws

theorem sum_ones {l : List (Addr × Multisig.Signer)} (h : ∀ e ∈ l, e.2.weight = 1) :
    (l.map (fun e => e.2.weight)).sum = l.length := by
  induction l with
  | nil => rfl
  | cons e t ih =>
    simp only [List.map_cons, List.sum_cons, List.length_cons, h e List.mem_cons_self,
      ih (fun x hx => h x (List.mem_cons_of_mem _ hx))]
    omega

theorem fits_made (hi : Inv P setup l w) {n d : Nat}
    (hth : Std.MajorityThreshold.ofPair n d = .ok pc.signingThreshold) {b : Block} {ws : WorkerSet}
    (h : makeWorkerSet pc (proverEnv P w b pc sv kt) = .ok ws) : Fits ws := by
  obtain ⟨workers, ha, hs⟩ := Prover.setOf_makeWorkerSet h
  have hw : askWorkers w pc.serviceRegistry sv pc.chainName = some workers := by
    unfold proverEnv at ha
    simp only at ha
    cases hk : askWorkers w pc.serviceRegistry sv pc.chainName with
    | none => rw [hk] at ha; simp at ha
    | some x => rw [hk] at ha; simp only [Except.ok.injEq] at ha; rw [ha]
  obtain ⟨hnd, _⟩ := askWorkers_distinct hi hw
  have hones : ∀ e ∈ ws.signers, e.2.weight = 1 := fun e he => ((hs.signers e.1 e.2).mp he).2.2.1
  refine ⟨hones, ?_, ?_⟩
  · have := (Prover.C62_built pc _ ws workers n d hth h ha hnd).2
    unfold Prover.setWeight at this
    rw [sum_ones hones] at this
    exact this
  · intro e he
    exact askKey_length hi ((hs.signers e.1 e.2).mp he).2.2.2

theorem fits_built {ops : List Prover.Op} (hi : Inv P setup l w) (hp : Pair P setup Q pc sv kt mc l w ops) {n d : Nat}
    (hth : Std.MajorityThreshold.ofPair n d = .ok pc.signingThreshold) {ws : WorkerSet}
    (h : ws ∈ builtSets pc (sysLog P.X P.C Q pc mc ops)) : Fits ws := by
  obtain ⟨st, hst, hm⟩ := List.mem_filterMap.mp h
  split at hm
  · rename_i m env hc
    split at hm
    · rename_i ws' hmk
      simp only [Option.some.injEq] at hm
      subst hm
      obtain ⟨k₁, e, k₂, b, hl, _, _, rfl, _⟩ := hp.calls st hst m env hc
      exact fits_made (hi.prefix hl) hth hmk
    · simp at hm
  · simp at hm

/-- the worker sets of the prover are among those it built -/
theorem current_built (X : Encoding.Ext) (C : Multisig.Crypto) (Q : Addr) (pc : Prover.Config) (mc : Multisig.Config)
    (ops : List Prover.Op) :
    (∀ ws, (sysAfter X C Q pc mc ops).prover.current = some ws → ws ∈ builtSets pc (sysLog X C Q pc mc ops)) ∧
    (∀ ws, (sysAfter X C Q pc mc ops).prover.next = some ws → ws ∈ builtSets pc (sysLog X C Q pc mc ops)) := by
  unfold sysAfter sysLog
  refine (steps_inv (sysExec X C Q) (P := fun log S => S.prover.config = pc ∧
    (∀ ws, S.prover.current = some ws → ws ∈ builtSets pc log) ∧
    (∀ ws, S.prover.next = some ws → ws ∈ builtSets pc log))
    (sysInit pc mc) ⟨rfl, by simp [sysInit, Prover.init], by simp [sysInit, Prover.init]⟩ ?_ ops).2
  rintro log S op S' r ⟨hcfg, h1, h2⟩ hx
  have mono : ∀ ws, ws ∈ builtSets pc log → ws ∈ builtSets pc (log ++ [⟨S, op, r, S'⟩]) := by
    intro ws h
    unfold builtSets at h ⊢
    rw [List.filterMap_append]
    exact List.mem_append_left _ h
  rcases Prover.sys_ok hx with ⟨c, mr, _, _, h3, _⟩ | ⟨msg, env, pr, mr, rfl, _, h3, _⟩
  · rw [h3]
    exact ⟨hcfg, fun ws h => mono ws (h1 ws h), fun ws h => mono ws (h2 ws h)⟩
  · have hc' : S'.prover.config = pc := by rw [Prover.config_const h3, hcfg]
    have new : ∀ ws, makeWorkerSet pc env = .ok ws →
        ws ∈ builtSets pc (log ++ [⟨S, .prover msg env, r, S'⟩]) := by
      intro ws h
      unfold builtSets
      rw [List.filterMap_append]
      apply List.mem_append_right
      simp [h]
    refine ⟨hc', ?_⟩
    cases Prover.exec_effect h3 with
    | first nw hm hc hn hs hr =>
      rw [hs]
      refine ⟨?_, fun ws h => mono ws (h2 ws h)⟩
      intro ws h
      simp only [Option.some.injEq] at h
      subst h
      rw [hcfg] at hn
      exact new _ hn
    | confirmed ws' o hm hp ho hv hs hr =>
      rw [hs]
      refine ⟨?_, by simp⟩
      intro ws h
      simp only [Option.some.injEq] at h
      subst h
      exact mono _ (h2 _ hp)
    | reused ids b cur digest sid hm hb hg hc hd ha hs hr =>
      rw [hs]
      exact ⟨fun ws h => mono ws (h1 ws h), fun ws h => mono ws (h2 ws h)⟩
    | built ids msgs ws' b cur digest sid hm hw hb hp hcur hd ha hs hr =>
      rw [hs]
      refine ⟨fun ws h => mono ws (h1 ws h), ?_⟩
      intro ws h
      simp only at h
      unfold Prover.pendingAfter at h
      cases ws' with
      | none => exact mono _ (h2 ws h)
      | some w0 =>
        simp only [Option.some.injEq] at h
        subst h
        obtain ⟨nw, _, g1, _, g3⟩ := Prover.nextWorkerSet_ok.mp hw
        rw [hcfg] at g1
        split at g3
        · simp only [Option.some.injEq] at g3
          rw [g3]
          exact new _ g1
        · simp at g3

/-! ### Requests -/

theorem counter_le (C : Multisig.Crypto) (idOf : WorkerSet → Str) (mc : Multisig.Config) (cs : List Multisig.Call) :
    (Multisig.stateAfter C idOf mc cs).counter ≤ cs.length := by
  unfold Multisig.stateAfter
  induction cs using List.reverseRecOn with
  | nil => exact Nat.le_refl _
  | append_singleton cs c ih =>
    rw [runCalls_append, runCalls_cons, runCalls_nil, List.length_append, List.length_singleton]
    cases hx : Multisig.exec C idOf (runCalls (Multisig.exec C idOf) (Multisig.init mc) cs) c with
    | error e => simp only [commit]; omega
    | ok y =>
      obtain ⟨s', r⟩ := y
      simp only [commit]
      generalize runCalls (Multisig.exec C idOf) (Multisig.init mc) cs = s at ih hx
      have : s'.counter ≤ s.counter + 1 := by
        rcases Multisig.exec_ok hx with ⟨_, _, _, _, _, h⟩ | ⟨_, _, _, h⟩ | ⟨_, _, _, _, rfl, _⟩ |
          ⟨_, _, _, _, _, rfl, _⟩ | ⟨_, _, _, rfl, _⟩ | ⟨_, _, _, rfl, _⟩
        · obtain ⟨_, _, _, _, ws, hws, rfl, rfl⟩ := Multisig.start_ok.mp h
          exact Nat.le_refl _
        · obtain ⟨_, _, _, _, _, _, _, _, _, _, _, _, _, rfl, _⟩ := Multisig.submit_ok.mp h
          exact Nat.le_succ _
        all_goals exact Nat.le_succ _
      omega

theorem multisigCalls_length (a : Addr) (l : List Entry) : (multisigCalls a l).length ≤ l.length := by
  unfold multisigCalls actsAt
  exact Nat.le_trans (List.length_filterMap_le ..) (by rw [List.length_map]; exact List.length_filter_le ..)

theorem askGateway_length {ids : List CCId} {G : Addr} {ms : List Message} (h : askGateway w G ids = .ok ms) :
    ms.length = ids.length := by
  unfold askGateway at h
  split at h
  · split at h
    · rename_i ms' hg
      simp only [Except.ok.injEq] at h
      subst h
      exact mapE_length hg
    · simp at h
  · simp at h

/-- a transaction that asks for a proof -/
theorem exec_request {tx : Tx} {funds : List Registry.Coin} {m : Prover.Msg} {s : Prover.State} {S : Multisig.State}
    (htx : tx.msgs = [(Q, funds, .prover m)]) (hs : w tx.sender = none) (hgas : 1 ≤ tx.gas)
    (hQ : w Q = some (.prover s sv kt)) (hcfg : s.config = pc) (hM : w pc.multisig = some (.multisig S)) {s1 : Prover.State}
    {out : Prover.Out} (hh : Prover.handle P.X s (proverEnv P w tx.block pc sv kt) m = .ok (s1, out))
    {S' : Multisig.State} {mr : Multisig.Resp}
    (hm : Multisig.exec P.C (Prover.workerSetId P.X) S ⟨Q, tx.block.height, out.toMultisig⟩ = .ok (S', mr))
    (hr : mr.records = []) {s' : Prover.State} {r : Prover.Resp}
    (hp : Prover.exec P.X s ⟨m, proverEnv P w tx.block pc sv kt, some mr.data⟩ = .ok (s', r)) :
    exec P w tx = .ok ((w.set Q (.prover s' sv kt)).set pc.multisig (.multisig S'),
      [⟨⟨tx.sender, Q, funds, .prover m⟩,
          .prover pc.multisig ⟨m, proverEnv P w tx.block pc sv kt, some mr.data⟩ r⟩,
        ⟨⟨Q, pc.multisig, [], .multisig out.toMultisig⟩,
          .multisig ⟨Q, tx.block.height, out.toMultisig⟩ mr⟩]) := by
  subst hcfg
  have hdel : deliver P tx.block w ⟨tx.sender, Q, funds, .prover m⟩ =
      .ok ((w.set Q (.prover s' sv kt)).set s.config.multisig (.multisig S'),
      [⟨⟨tx.sender, Q, funds, .prover m⟩,
          .prover s.config.multisig ⟨m, proverEnv P w tx.block s.config sv kt, some mr.data⟩ r⟩,
        ⟨⟨Q, s.config.multisig, [], .multisig out.toMultisig⟩,
          .multisig ⟨Q, tx.block.height, out.toMultisig⟩ mr⟩], []) := by
    unfold deliver
    simp only [hQ, hh]
    have hc1 : call P tx.block w ⟨Q, s.config.multisig, [], .multisig out.toMultisig⟩ none =
        .ok (.multisig S', .multisig ⟨Q, tx.block.height, out.toMultisig⟩ mr) := by
      unfold call
      simp only [hM, hm]
    have hc2 : call P tx.block w ⟨tx.sender, Q, funds, .prover m⟩ (some mr.data) =
        .ok (.prover s' sv kt, .prover s.config.multisig ⟨m, proverEnv P w tx.block s.config sv kt, some mr.data⟩ r) := by
      unfold call
      simp only [hQ, hp]
    simp only [hc1, hc2, Entry.sent, Act.outs, hr, List.map_nil]
  obtain ⟨g, hg⟩ : ∃ g, tx.gas = g + 1 := ⟨tx.gas - 1, by omega⟩
  unfold exec
  rw [if_neg (by simp [hs]), htx, hg]
  simp only [List.map_cons, List.map_nil]
  rw [run, if_neg (by simp [hQ]), hdel]
  simp only [List.append_nil]
  cases g <;> simp [run]

end Amp.Chain
