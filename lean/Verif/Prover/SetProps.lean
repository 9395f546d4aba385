import Verif.Prover.SetLemmas
import Verif.Prover.Example
import Verif.Registry.Props

/-!
# Worker sets of the prover: C52, C53, C54, C62
-/

namespace Amp.Prover

open Amp.Encoding
open Amp.Multisig (Signature PublicKey Signer WorkerSet)
open Amp.Router (CCId Message ChainName)
open Amp.Registry (Worker)

theorem config_stateAfter (X : Ext) (cfg : Config) (cs : List Call) : (stateAfter X cfg cs).config = cfg := by
  unfold stateAfter
  refine runCalls_inv (exec X) (P := fun s : State => s.config = cfg) ?_ (init cfg) rfl cs
  intro s c s' r h hx
  rw [config_const hx, h]

/-! ### C52 -/

/-- C52: in any history, every successful call leaves the current worker set as it is, or is the first
update, which takes the active workers of the moment as the set, or is a confirmation: then the pending set
becomes the current one, the verifier has reported its operators as verified, and nothing is pending any
more. In both cases the new set is registered with the multisig contract. -/
theorem C52_change (X : Ext) (cfg : Config) (cs : List Call) (e : Step State Call Resp)
    (he : e ∈ steps (exec X) (init cfg) cs) :
    e.post.current = e.pre.current ∧ e.pre.current ≠ none ∧ e.call.msg ≠ .confirmWorkerSet ∨
    (e.call.msg = .updateWorkerSet ∧ e.pre.current = none ∧ e.post.next = e.pre.next ∧
      ∃ ws workers, e.post.current = some ws ∧ e.call.env.activeWorkers = .ok workers ∧
        SetOf cfg.signingThreshold e.call.env.publicKey e.call.env.height workers ws ∧
        e.resp.out = .registerWorkerSet ws) ∨
    (e.call.msg = .confirmWorkerSet ∧
      ∃ ws ops, e.pre.next = some ws ∧ e.post.current = some ws ∧ e.post.next = none ∧
        IsOperators X cfg.encoder ws ops ∧ e.call.env.verified ops = .ok true ∧
        e.resp.out = .registerWorkerSet ws) := by
  obtain ⟨⟨cs₁, cs₂, _, hpre⟩, hx⟩ := steps_mem (exec X) he
  have hcfg : e.pre.config = cfg := by rw [hpre]; exact config_stateAfter X cfg cs₁
  cases exec_effect hx with
  | first new hm hc hn hs hr =>
    right; left
    rw [hcfg] at hn
    obtain ⟨workers, h1, h2⟩ := setOf_makeWorkerSet hn
    exact ⟨hm, hc, by rw [hs], new, workers, by rw [hs], h1, h2, by rw [hr]⟩
  | confirmed ws ops hm hp ho hv hs hr =>
    right; right
    rw [hcfg] at ho
    exact ⟨hm, ws, ops, hp, by rw [hs], by rw [hs], isOperators_makeOperators ho, hv, by rw [hr]⟩
  | reused ids b cur digest sid hm hb hg hc hd ha hs hr =>
    left
    exact ⟨by rw [hs], by rw [hc]; simp, by rw [hm]; simp⟩
  | built ids msgs ws b cur digest sid hm hw hb hp hc hd ha hs hr =>
    left
    refine ⟨by rw [hs], by rw [hc]; simp, ?_⟩
    rcases hm with ⟨h, _⟩ | ⟨h, _⟩ <;> rw [h] <;> simp

/-- C52: a confirmation fails, and so changes nothing, unless a set is pending whose operators the verifier
reports as verified. -/
theorem C52_unconfirmed (X : Ext) (s : State) (c : Call) (hm : c.msg = .confirmWorkerSet)
    (h : ∀ ws ops, s.next = some ws → IsOperators X s.config.encoder ws ops →
      c.env.verified ops ≠ .ok true) :
    ∃ e, exec X s c = .error e := by
  cases hx : exec X s c with
  | error e => exact ⟨e, rfl⟩
  | ok x =>
    obtain ⟨s', r⟩ := x
    exfalso
    cases exec_effect hx with
    | first new hm' _ _ _ _ => rw [hm] at hm'; simp at hm'
    | confirmed ws ops _ hp ho hv _ _ => exact h ws ops hp (isOperators_makeOperators ho) hv
    | reused ids b cur digest sid hm' hb hg hc hd ha hs hr => rw [hm] at hm'; simp at hm'
    | built ids msgs ws b cur digest sid hm' hw hb hp hc hd ha hs hr =>
      rcases hm' with ⟨h', _⟩ | ⟨h', _⟩ <;> rw [hm] at h' <;> simp at h'

/-- the current set was asked to sign the handover to `ws` -/
def Proposed (X : Ext) (cfg : Config) (log : List (Step State Call Resp)) (s : State) (ws : WorkerSet) :
    Prop :=
  ∃ e ∈ log, ∃ cur b c rest digest sid,
    e.pre.current = some cur ∧ s.current = some cur ∧
    e.post.batches b.id = some b ∧ b.data.commands = c :: rest ∧ IsTransfer X cfg.encoder ws c ∧
    b.digest X = .ok digest ∧
    e.resp = ⟨.startSigning (workerSetId X cur) digest cfg.chainName, some (sid, b.id)⟩

/-- C52: a set is pending only if the current set was asked to sign the handover to exactly that set: an
earlier call stored a batch whose first command is the transfer to it and started a signing session under
the set that is still the current one, for the digest of that batch. -/
theorem C52_proposed (X : Ext) (cfg : Config) (cs : List Call) (ws : WorkerSet)
    (h : (stateAfter X cfg cs).next = some ws) :
    ∃ e ∈ steps (exec X) (init cfg) cs, ∃ cur b c rest digest sid,
      e.pre.current = some cur ∧ (stateAfter X cfg cs).current = some cur ∧
      e.post.batches b.id = some b ∧ b.data.commands = c :: rest ∧ IsTransfer X cfg.encoder ws c ∧
      b.digest X = .ok digest ∧
      e.resp = ⟨.startSigning (workerSetId X cur) digest cfg.chainName, some (sid, b.id)⟩ := by
  revert h
  revert ws
  unfold stateAfter
  refine (steps_inv (exec X) (P := fun log s => s.config = cfg ∧ ∀ ws, s.next = some ws →
    Proposed X cfg log s ws)
    (init cfg) ⟨rfl, by intro ws h; simp [init] at h⟩ ?_ cs).2
  rintro log s c s' r ⟨hcfg, ih⟩ hx
  refine ⟨by rw [config_const hx, hcfg], ?_⟩
  intro ws hws
  have old : s'.next = s.next → s'.current = s.current →
      Proposed X cfg (log ++ [⟨s, c, r, s'⟩]) s' ws := by
    intro h1 h2
    rw [h1] at hws
    obtain ⟨e, he, cur, b, c', rest, digest, sid, h3, h4, h5⟩ := ih ws hws
    exact ⟨e, List.mem_append_left _ he, cur, b, c', rest, digest, sid, h3, by rw [h2]; exact h4, h5⟩
  cases exec_effect hx with
  | first new hm hc hn hs hr =>
    have : s.next = some ws := by rw [hs] at hws; exact hws
    obtain ⟨_, _, cur, _, _, _, _, _, _, h4, _⟩ := ih ws this
    rw [hc] at h4
    simp at h4
  | confirmed ws' ops hm hp ho hv hs hr =>
    rw [hs] at hws
    simp at hws
  | reused ids b cur digest sid hm hb hg hc hd ha hs hr =>
    exact old (by rw [hs]) (by rw [hs])
  | built ids msgs ws' b cur digest sid hm hw hb hp hc hd ha hs hr =>
    cases ws' with
    | none => exact old (by rw [hs]; rfl) (by rw [hs])
    | some w =>
      have : w = ws := by
        rw [hs] at hws
        simpa [pendingAfter] using hws
      subst this
      rw [hcfg] at hb hr
      obtain ⟨⟨_, _, _, transfer, approvals, hcmd, htr, _⟩, _⟩ := isBatch_build hb
      obtain ⟨c', rfl, hc'⟩ := htr
      refine ⟨_, List.mem_append_right _ (List.mem_singleton_self _), cur, b, c', approvals, digest, sid, hc,
        by rw [hs]; exact hc, ?_, hcmd, hc', hd, hr⟩
      rw [hs]
      simp

/-- the history has a first set, a rotation in flight and a confirmation -/
example : ((steps (exec exX) (init exCfg) exCalls).map (fun e => e.post.current)).take 3 =
    [some (exSet [5, 6, 7] 2 10), some (exSet [5, 6, 7] 2 10), some (exSet [5, 6, 8] 2 11)] := by
  decide +kernel

/-! ### C53 -/

/-- C53: in any history, while a set is pending, every successful call either keeps a pending set with the
same signers and the same threshold, and the current set, or is a confirmation, after which the pending set
is the current one and nothing is pending. -/
theorem C53_one_rotation (X : Ext) (cfg : Config) (cs : List Call) (e : Step State Call Resp)
    (he : e ∈ steps (exec X) (init cfg) cs) (p : WorkerSet) (hp : e.pre.next = some p) :
    (∃ q, e.post.next = some q ∧ SameSet p q ∧ e.post.current = e.pre.current) ∨
    (e.call.msg = .confirmWorkerSet ∧ e.post.next = none ∧ e.post.current = some p) := by
  obtain ⟨⟨cs₁, cs₂, _, hpre⟩, hx⟩ := steps_mem (exec X) he
  cases exec_effect hx with
  | first new hm hc hn hs hr =>
    exfalso
    rw [hpre] at hc hp
    obtain ⟨_, _, cur, _, _, _, _, _, _, h4, _⟩ := C52_proposed X cfg cs₁ p hp
    rw [show stateAfter X cfg cs₁ = runCalls (exec X) (init cfg) cs₁ from rfl, hc] at h4
    simp at h4
  | confirmed ws ops hm hp' ho hv hs hr =>
    right
    rw [hp] at hp'
    simp only [Option.some.injEq] at hp'
    subst hp'
    exact ⟨hm, by rw [hs], by rw [hs]⟩
  | reused ids b cur digest sid hm hb hg hc hd ha hs hr =>
    left
    exact ⟨p, by rw [hs]; exact hp, ⟨rfl, rfl⟩, by rw [hs]⟩
  | built ids msgs ws b cur digest sid hm hw hb hp' hc hd ha hs hr =>
    left
    cases ws with
    | none => exact ⟨p, by rw [hs]; exact hp, ⟨rfl, rfl⟩, by rw [hs]⟩
    | some w => exact ⟨w, by rw [hs]; rfl, hp' w p rfl hp, by rw [hs]⟩

/-! ### C54 -/

theorem current_wf (X : Ext) (cfg : Config) (cs : List Call) :
    (∀ ws, (stateAfter X cfg cs).current = some ws → SetWF ws) ∧
    (∀ ws, (stateAfter X cfg cs).next = some ws → SetWF ws) := by
  unfold stateAfter
  refine runCalls_inv (exec X) (P := fun s : State =>
    (∀ ws, s.current = some ws → SetWF ws) ∧ (∀ ws, s.next = some ws → SetWF ws)) ?_ (init cfg) ?_ cs
  · rintro s c s' r ⟨h1, h2⟩ hx
    cases exec_effect hx with
    | first new hm hc hn hs hr =>
      rw [hs]
      refine ⟨?_, h2⟩
      intro ws hws
      simp only [Option.some.injEq] at hws
      subst hws
      exact setWF_makeWorkerSet hn
    | confirmed ws ops hm hp ho hv hs hr =>
      rw [hs]
      refine ⟨?_, by simp⟩
      intro ws' hws
      simp only [Option.some.injEq] at hws
      subst hws
      exact h2 _ hp
    | reused ids b cur digest sid hm hb hg hc hd ha hs hr =>
      rw [hs]
      exact ⟨h1, h2⟩
    | built ids msgs ws b cur digest sid hm hw hb hp hc hd ha hs hr =>
      rw [hs]
      refine ⟨h1, ?_⟩
      intro ws' hws
      cases ws with
      | none => exact h2 _ hws
      | some w =>
        simp only [pendingAfter, Option.some.injEq] at hws
        subst hws
        obtain ⟨new, cur', hn, _, hif⟩ := nextWorkerSet_ok.mp hw
        split at hif
        · simp only [Option.some.injEq] at hif
          subst hif
          exact setWF_makeWorkerSet hn
        · simp at hif
  · exact ⟨by simp [init], by simp [init]⟩

theorem next_exact (X : Ext) (cfg : Config) (cs : List Call) (env : Env) (cur new : WorkerSet)
    (hc : (stateAfter X cfg cs).current = some cur) (hn : makeWorkerSet cfg env = .ok new) :
    nextWorkerSet (stateAfter X cfg cs) env =
      .ok (if cfg.diffThreshold < membershipChanges new cur then some new else none) := by
  have hcfg := config_stateAfter X cfg cs
  refine nextWorkerSet_ok.mpr ⟨new, cur, by rw [hcfg]; exact hn, hc, ?_⟩
  rw [hcfg]
  have hiff := shouldUpdate_iff (setWF_makeWorkerSet hn) ((current_wf X cfg cs).1 cur hc) cfg.diffThreshold
  by_cases h : cfg.diffThreshold < membershipChanges new cur
  · rw [if_pos h, if_pos (hiff.mpr h)]
  · rw [if_neg h, if_neg (fun h' => h (hiff.mp h'))]

/-- C53: while a set is pending, a request that would need a rotation to different signers or another
threshold is refused. -/
theorem C53_refused (X : Ext) (cfg : Config) (cs : List Call) (s : State) (hs : s = stateAfter X cfg cs)
    (c : Call) (p cur new : WorkerSet) (hp : s.next = some p)
    (hc : s.current = some cur) (hn : makeWorkerSet cfg c.env = .ok new)
    (hu : cfg.diffThreshold < membershipChanges new cur) (hd : ¬ SameSet p new)
    (hm : c.msg = .updateWorkerSet ∨ ∃ ids msgs, c.msg = .constructProof ids ∧
      getMessages s c.env ids = .ok msgs ∧ s.batches (batchId X ids none) = none) :
    exec X s c = .error .workerSetConfirmationInProgress := by
  have hnext : nextWorkerSet s c.env = .ok (some new) :=
    by rw [hs, next_exact X cfg cs c.env cur new (by rw [← hs]; exact hc) hn, if_pos hu]
  have hsave : saveNext s new = .error .workerSetConfirmationInProgress := by
    unfold saveNext differentSetInProgress
    rw [hp]
    simp only
    rw [if_pos]
    rw [decide_eq_true_eq]
    by_contra hcon
    push Not at hcon
    exact hd hcon
  unfold exec
  have hh : handle X s c.env c.msg = .error .workerSetConfirmationInProgress := by
    rcases hm with hm | ⟨ids, msgs, hm, hg, hb⟩
    · rw [hm]
      simp only [handle, updateWorkerSet, hc, hnext, hsave]
    · rw [hm]
      simp only [handle, constructProof, hg, hb, newBatch, hnext, hsave]
  rw [hh]

example : ∃ s p cur new, s = stateAfter exX exCfg (exCalls.take 2) ∧ s.next = some p ∧ s.current = some cur ∧
    makeWorkerSet exCfg (exEnv [5, 6, 9] 12) = .ok new ∧
    exCfg.diffThreshold < membershipChanges new cur ∧ p.signers ≠ new.signers ∧
    (match exec exX s ⟨.updateWorkerSet, exEnv [5, 6, 9] 12, some (some 2)⟩ with
      | .error .workerSetConfirmationInProgress => true
      | _ => false) = true :=
  ⟨_, exSet [5, 6, 8] 2 11, exSet [5, 6, 7] 2 10, exSet [5, 6, 9] 2 12, rfl, by decide +kernel,
    by decide +kernel, by decide +kernel, by decide +kernel, by decide +kernel, by decide +kernel⟩

/-- C54: an update request in a reachable state with a current set is answered "unchanged" exactly if not
enough signers have changed. -/
theorem C54_update (X : Ext) (cfg : Config) (cs : List Call) (env : Env) (answer : Option (Option Nat))
    (cur new : WorkerSet) (hc : (stateAfter X cfg cs).current = some cur)
    (hn : makeWorkerSet cfg env = .ok new) :
    membershipChanges new cur ≤ cfg.diffThreshold →
      exec X (stateAfter X cfg cs) ⟨.updateWorkerSet, env, answer⟩ = .error .workerSetUnchanged := by
  intro h
  have := next_exact X cfg cs env cur new hc hn
  rw [if_neg (by omega)] at this
  simp only [exec, handle, updateWorkerSet, hc, this]

/-- C54: every successful call of a history that starts a signing session for a new batch compares the active
workers of the moment with the current set: if more signers than the threshold allows have joined or left,
the batch begins with the transfer to the new set, which is pending from then on; otherwise the batch has no
transfer, the pending set stays as it is, and the call is a proof request. -/
theorem C54_started (X : Ext) (cfg : Config) (cs : List Call) (e : Step State Call Resp)
    (he : e ∈ steps (exec X) (init cfg) cs) (sid : Nat) (bid : Bytes) (hev : e.resp.event = some (sid, bid))
    (hnew : ∀ ids, e.call.msg = .constructProof ids → e.pre.batches (batchId X ids none) = none) :
    ∃ cur new workers b, e.pre.current = some cur ∧ e.call.env.activeWorkers = .ok workers ∧
      SetOf cfg.signingThreshold e.call.env.publicKey e.call.env.height workers new ∧
      b.id = bid ∧ e.post.batches bid = some b ∧
      if cfg.diffThreshold < membershipChanges new cur then
        e.post.next = some new ∧ ∃ msgs, IsBatch X cfg (some new) msgs b
      else
        e.post.next = e.pre.next ∧ (∃ msgs, IsBatch X cfg none msgs b) ∧
          ∃ ids, e.call.msg = .constructProof ids := by
  obtain ⟨⟨cs₁, cs₂, _, hpre⟩, hx⟩ := steps_mem (exec X) he
  have hcfg : e.pre.config = cfg := by rw [hpre]; exact config_stateAfter X cfg cs₁
  cases exec_effect hx with
  | first new hm hc hn hs hr => rw [hr] at hev; simp at hev
  | confirmed ws ops hm hp' ho hv hs hr => rw [hr] at hev; simp at hev
  | reused ids b cur digest sid hm hb hg hc hd ha hs hr =>
    rw [hnew ids hm] at hb
    simp at hb
  | built ids msgs ws b cur digest sid' hm hw hb hp' hc hd ha hs hr =>
    rw [hr] at hev
    simp only [Option.some.injEq, Prod.mk.injEq] at hev
    obtain ⟨rfl, rfl⟩ := hev
    obtain ⟨new, cur', hn, hc', hif⟩ := nextWorkerSet_ok.mp hw
    rw [hc] at hc'
    simp only [Option.some.injEq] at hc'
    subst hc'
    obtain ⟨workers, h1, h2⟩ := setOf_makeWorkerSet hn
    rw [hcfg] at hb h2
    have hwf : SetWF cur := (current_wf X cfg cs₁).1 cur (by rw [hpre] at hc; exact hc)
    have hiff := shouldUpdate_iff (setWF_makeWorkerSet hn) hwf cfg.diffThreshold
    rw [hcfg] at hif
    refine ⟨cur, new, workers, b, hc, h1, h2, rfl, by rw [hs]; simp, ?_⟩
    by_cases h : cfg.diffThreshold < membershipChanges new cur
    · rw [if_pos h]
      rw [if_pos (hiff.mpr h)] at hif
      subst hif
      exact ⟨by rw [hs]; rfl, msgs, (isBatch_build hb).1⟩
    · rw [if_neg h]
      rw [if_neg (fun h' => h (hiff.mp h'))] at hif
      subst hif
      refine ⟨by rw [hs]; rfl, ⟨msgs, (isBatch_build hb).1⟩, ?_⟩
      rcases hm with ⟨h, _⟩ | ⟨_, _, _, w, hw⟩
      · exact ⟨ids, h⟩
      · simp at hw

/-- one signer replaced by another is two changes; a changed key also counts twice -/
example : membershipChanges (exSet [5, 6, 8] 2 11) (exSet [5, 6, 7] 2 10) = 2 ∧
    membershipChanges (exSet [5, 6, 7, 8] 3 11) (exSet [5, 6, 7] 2 10) = 1 ∧
    membershipChanges ⟨[(5, ⟨5, 1, .ecdsa [9]⟩)], 1, 0⟩ (exSet [5] 1 0) = 2 := by decide +kernel

/-- one more worker is below the threshold, a replaced one is above it -/
example : (match exec exX (stateAfter exX exCfg (exCalls.take 3))
      ⟨.updateWorkerSet, exEnv [5, 6, 8, 9] 20, some (some 9)⟩ with
    | .error .workerSetUnchanged => true
    | _ => false) = true ∧
    ((steps (exec exX) (init exCfg) exCalls).map (fun e => decide (e.post.next = none))) =
      [true, false, true, true, true, false] := by decide +kernel

/-! ### C62 -/

theorem weight_eq_length {th : Std.MajorityThreshold} {keys : Addr → Except Err PublicKey} {height : Nat}
    {workers : List Worker} {ws : WorkerSet} (h : SetOf th keys height workers ws)
    (hnd : (workers.map (·.address)).Nodup) (hk : ∀ w ∈ workers, ∃ k, keys w.address = .ok k) :
    setWeight ws = workers.length := by
  have hone : ∀ e ∈ ws.signers, e.2.weight = 1 := fun e he => ((h.signers e.1 e.2).mp he).2.2.1
  have h1 : setWeight ws = ws.signers.length := by
    unfold setWeight
    clear h
    generalize ws.signers = l at hone
    induction l with
    | nil => rfl
    | cons e t ih =>
      rw [List.map_cons, List.sum_cons, hone e (by simp), ih (fun e he => hone e (by simp [he])),
        List.length_cons]
      omega
  have hperm : (ws.signers.map Prod.fst).Perm (workers.map (·.address)) := by
    apply (List.perm_ext_iff_of_nodup (h.sorted.imp (fun h => Nat.ne_of_lt h)) hnd).mpr
    intro a
    constructor
    · intro ha
      obtain ⟨e, he, rfl⟩ := List.mem_map.mp ha
      obtain ⟨⟨w, hw, h2⟩, _⟩ := (h.signers e.1 e.2).mp he
      exact List.mem_map.mpr ⟨w, hw, h2⟩
    · intro ha
      obtain ⟨w, hw, rfl⟩ := List.mem_map.mp ha
      obtain ⟨k, hk'⟩ := hk w hw
      exact List.mem_map.mpr ⟨(w.address, ⟨w.address, 1, k⟩),
        (h.signers _ _).mpr ⟨⟨w, hw, rfl⟩, rfl, rfl, hk'⟩, rfl⟩
  have := hperm.length_eq
  rw [List.length_map, List.length_map] at this
  rw [h1, this]

theorem setOf_keys {cfg : Config} {env : Env} {ws : WorkerSet} {workers : List Worker}
    (h : makeWorkerSet cfg env = .ok ws) (ha : env.activeWorkers = .ok workers) :
    ∀ w ∈ workers, ∃ k, env.publicKey w.address = .ok k := by
  obtain ⟨workers', keys, sn, ha', _, _, hk, _⟩ := makeWorkerSet_ok h
  rw [ha] at ha'
  simp only [Except.ok.injEq] at ha'
  subst ha'
  intro w hw
  obtain ⟨k, _, h1⟩ := mapE_mem hk hw
  exact ⟨k, h1⟩

/-- C62: the threshold of every set the prover builds, from any answer of the registry without duplicates,
is more than half of the total weight of the set and at most all of it. -/
theorem C62_built (cfg : Config) (env : Env) (ws : WorkerSet) (workers : List Worker) (n d : Nat)
    (hth : Std.MajorityThreshold.ofPair n d = .ok cfg.signingThreshold)
    (h : makeWorkerSet cfg env = .ok ws) (ha : env.activeWorkers = .ok workers)
    (hnd : (workers.map (·.address)).Nodup) :
    setWeight ws < 2 * ws.threshold ∧ ws.threshold ≤ setWeight ws := by
  obtain ⟨workers', ha', hs⟩ := setOf_makeWorkerSet h
  rw [ha] at ha'
  simp only [Except.ok.injEq] at ha'
  subst ha'
  have hw := weight_eq_length hs hnd (setOf_keys h ha)
  obtain ⟨_, _, _, _, _, hsn, _, rfl⟩ := makeWorkerSet_ok h
  rename_i workers' keys sn ha' hb hk
  rw [ha] at ha'
  simp only [Except.ok.injEq] at ha'
  subst ha'
  obtain ⟨_, h1, h2, _⟩ := Std.C02_quorum_exact hth hsn
  have hl := totalWeight_ones workers
  rw [hl] at h1 h2
  rw [hw]
  exact ⟨h1, h2⟩

/-- C62: hence so are the thresholds of the current and of the pending set in every reachable state, if the
registry lists no worker twice, as `C34_active_workers` proves of it. -/
theorem C62_reachable (X : Ext) (cfg : Config) (cs : List Call) (n d : Nat)
    (hth : Std.MajorityThreshold.ofPair n d = .ok cfg.signingThreshold)
    (hreg : ∀ c ∈ cs, ∀ workers, c.env.activeWorkers = .ok workers → (workers.map (·.address)).Nodup)
    (ws : WorkerSet)
    (h : (stateAfter X cfg cs).current = some ws ∨ (stateAfter X cfg cs).next = some ws) :
    setWeight ws < 2 * ws.threshold ∧ ws.threshold ≤ setWeight ws := by
  have key : ∀ c ∈ cs, ∀ ws, makeWorkerSet cfg c.env = .ok ws →
      setWeight ws < 2 * ws.threshold ∧ ws.threshold ≤ setWeight ws := by
    intro c hc ws hws
    obtain ⟨workers, ha, _⟩ := setOf_makeWorkerSet hws
    exact C62_built cfg c.env ws workers n d hth hws ha (hreg c hc workers ha)
  clear hreg hth
  revert ws
  induction cs using List.reverseRecOn with
  | nil => intro ws h; simp [stateAfter, init] at h
  | append_singleton cs c ih =>
    have ih := ih (fun c hc => key c (List.mem_append_left _ hc))
    have key := key c (by simp)
    have hcfg := config_stateAfter X cfg cs
    rw [stateAfter_snoc]
    intro ws h
    cases hx : exec X (stateAfter X cfg cs) c with
    | error e => rw [hx] at h; exact ih ws h
    | ok x =>
      obtain ⟨s', r⟩ := x
      rw [hx] at h
      simp only at h
      cases exec_effect hx with
      | first new hm hc hn hs hr =>
        rw [hs] at h
        rcases h with h | h
        · simp only [Option.some.injEq] at h
          subst h
          rw [hcfg] at hn
          exact key _ hn
        · exact ih ws (Or.inr h)
      | confirmed ws' ops hm hp ho hv hs hr =>
        rw [hs] at h
        rcases h with h | h
        · simp only [Option.some.injEq] at h
          subst h
          exact ih _ (Or.inr hp)
        · simp at h
      | reused ids b cur digest sid hm hb hg hc hd ha hs hr =>
        rw [hs] at h
        exact ih ws h
      | built ids msgs ws' b cur digest sid hm hw hb hp hc hd ha hs hr =>
        rw [hs] at h
        rcases h with h | h
        · exact ih ws (Or.inl h)
        · cases ws' with
          | none => exact ih ws (Or.inr h)
          | some w =>
            simp only [pendingAfter, Option.some.injEq] at h
            subst h
            obtain ⟨new, cur', hn, _, hif⟩ := nextWorkerSet_ok.mp hw
            split at hif
            · simp only [Option.some.injEq] at hif
              subst hif
              rw [hcfg] at hn
              exact key _ hn
            · simp at hif

/-- C62, with the service registry: a set built from the answer of the modelled registry, in any of its
reachable states, has a majority threshold that its members can reach. -/
theorem C62_with_registry (cfg : Config) (env : Env) (ws : WorkerSet) (n d : Nat)
    (hth : Std.MajorityThreshold.ofPair n d = .ok cfg.signingThreshold)
    (gov : Addr) (rcs : List Registry.Call) (service : Str) (sv : Registry.Service)
    (hsv : Registry.findService (Registry.stateAfter gov rcs).services service = some sv)
    (hreg : ∀ workers,
      Registry.getActiveWorkers (Registry.stateAfter gov rcs) service cfg.chainName = .ok workers →
      env.activeWorkers = .ok workers)
    (h : makeWorkerSet cfg env = .ok ws) :
    setWeight ws < 2 * ws.threshold ∧ ws.threshold ≤ setWeight ws ∧
      ∀ a sg, (a, sg) ∈ ws.signers → ∃ w k, Registry.findWorker (Registry.stateAfter gov rcs) service a = some w ∧
        w.bonding = .bonded k ∧ sv.minBond ≤ k ∧ w.auth = .authorized ∧
        Registry.declaredIn (Registry.history gov rcs) service cfg.chainName a := by
  obtain ⟨workers, h1, h2, h3, _⟩ := Registry.C34_active_workers gov rcs service cfg.chainName sv hsv
  have ha := hreg workers h1
  obtain ⟨hw1, hw2⟩ := C62_built cfg env ws workers n d hth h ha (h2.imp (fun h => Nat.ne_of_lt h))
  refine ⟨hw1, hw2, ?_⟩
  obtain ⟨workers', ha', hs⟩ := setOf_makeWorkerSet h
  rw [ha] at ha'
  simp only [Except.ok.injEq] at ha'
  subst ha'
  intro a sg hsg
  obtain ⟨⟨w, hw, rfl⟩, _⟩ := (hs.signers a sg).mp hsg
  obtain ⟨h4, h5, ⟨k, h6, h7⟩, h8⟩ := (h3 w).mp hw
  exact ⟨w, k, h4, h6, h7, h8, h5⟩

example : (match makeWorkerSet exCfg (exEnv [7, 5, 6] 3) with
    | .ok ws => decide (ws = exSet [5, 6, 7] 2 3 ∧ setWeight ws = 3)
    | .error _ => false) = true ∧
    (match Std.MajorityThreshold.ofPair 2 3 with
      | .ok t => decide (t = exCfg.signingThreshold)
      | .error _ => false) = true := by decide +kernel

/-- without the hypothesis it would fail: a worker listed three times still signs once, with weight one -/
example : (match makeWorkerSet exCfg (exEnv [5, 5, 5] 3) with
    | .ok ws => decide (ws.threshold = 2 ∧ setWeight ws = 1)
    | .error _ => false) = true := by decide +kernel

end Amp.Prover
