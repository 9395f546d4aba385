import Verif.Prover.System

/-!
# Signing sessions and their batches: C58
-/

namespace Amp.Prover

open Amp.Encoding
open Amp.Multisig (Signature PublicKey Signer WorkerSet Crypto)
open Amp.Router (CCId Message ChainName)

variable (X : Ext) (C : Crypto) (self : Addr) (cfg : Config) (mcfg : Multisig.Config)

/-! ### Specification -/

/-- the digest that is signed for a batch with this content -/
def dataDigest (X : Ext) (enc : Encoder) (d : Data) : Except Err Bytes :=
  match enc with
  | .abi => Abi.msgDigest X d
  | .bcs => Bcs.msgDigest X d

/-- A transaction `e` of the history asked for signatures: the prover stored batch `b` under `bid`, the
multisig contract opened session `sid` for the digest of `b`, under the worker set that was the current one. -/
structure Opened (e : Step Sys Op SysResp) (sid : Nat) (bid : Bytes) (b : Batch) (cur : WorkerSet)
    (digest : Bytes) : Prop where
  event : ∃ pr, e.resp = some pr ∧ pr.event = some (sid, bid)
  current : e.pre.prover.current = some cur
  batch : e.post.prover.batches bid = some b
  digestOf : dataDigest X cfg.encoder b.data = .ok digest
  session : e.post.multisig.sessions sid = some ⟨sid, workerSetId X cur, digest, .pending⟩
  fresh : e.pre.multisig.sessions sid = none

/-- the messages a request asked for; an update asks for none -/
def asked : Op → Except Err (List Message)
  | .prover (.constructProof ids) env => env.gateway ids
  | _ => .ok []

/-- the block of a transaction -/
def Op.height : Op → Nat
  | .prover _ env => env.height
  | .multisig c => c.height

/-- the transaction asked for signatures of a batch that begins with a transfer -/
def rotates (e : Step Sys Op SysResp) : Bool :=
  match e.resp with
  | some ⟨_, some (_, bid)⟩ =>
    match e.post.prover.batches bid with
    | some b => decide (b.data.commands.head?.map (·.ty) = some .transferOperatorship)
    | none => false
  | _ => false

/-- no two requests in the same block rotate the worker set and ask for different messages, or for the same
in a different order -/
def OneRotationPerBlock (log : List (Step Sys Op SysResp)) : Prop :=
  ∀ e ∈ log, ∀ e' ∈ log, rotates e = true → rotates e' = true → e.call.height = e'.call.height →
    asked e.call = asked e'.call

/-- the gateway answers requests with messages of the requested ids, in that order, and these are plain -/
def OwnIds (log : List (Step Sys Op SysResp)) : Prop :=
  ∀ e ∈ log, match e.call with
    | .prover (.constructProof ids) env => match env.gateway ids with
      | .ok msgs => msgs.map (·.ccId) = ids ∧ ∀ c ∈ ids, PlainId c
      | .error _ => True
    | _ => True

/-- the worker sets the prover had reason to build -/
def builtSets (log : List (Step Sys Op SysResp)) : List WorkerSet :=
  log.filterMap (fun e => match e.call with
    | .prover _ env => match makeWorkerSet cfg env with
      | .ok ws => some ws
      | .error _ => none
    | .multisig _ => none)

/-- the ids of the requests -/
def requestedIds (log : List (Step Sys Op SysResp)) : List (List CCId) :=
  [] :: log.filterMap (fun e => match e.call with
    | .prover (.constructProof ids) _ => some ids
    | _ => none)

/-- among what occurs in the history, the hashes have no collisions -/
structure NoCollisions (log : List (Step Sys Op SysResp)) : Prop where
  sets : ∀ w ∈ builtSets cfg log, ∀ w' ∈ builtSets cfg log, X.wsHash w = X.wsHash w' → w = w'
  texts : ∀ ids ∈ requestedIds log, ∀ ids' ∈ requestedIds log,
    ∀ ws ∈ none :: (builtSets cfg log).map some, ∀ ws' ∈ none :: (builtSets cfg log).map some,
    ¬ TextCollision X (batchText X ids ws) (batchText X ids' ws')

/-! ### Helper lemmas -/

variable {X C self cfg mcfg}

theorem digest_eq {b : Batch} {enc : Encoder} (h : b.encoder = enc) :
    b.digest X = dataDigest X enc b.data := by
  unfold Batch.digest dataDigest
  subst h
  cases b.encoder <;> rfl

theorem sys_ok {S S' : Sys} {op : Op} {r : SysResp} (h : sysExec X C self S op = .ok (S', r)) :
    (∃ c mr, op = .multisig c ∧
      Multisig.exec C (workerSetId X) S.multisig c = .ok (S'.multisig, mr) ∧ S'.prover = S.prover ∧ r = none) ∨
    (∃ msg env pr mr, op = .prover msg env ∧ r = some pr ∧
      exec X S.prover ⟨msg, env, some mr.data⟩ = .ok (S'.prover, pr) ∧
      Multisig.exec C (workerSetId X) S.multisig ⟨self, env.height, pr.out.toMultisig⟩ =
        .ok (S'.multisig, mr)) := by
  cases op with
  | multisig c =>
    left
    simp only [sysExec] at h
    cases hm : Multisig.exec C (workerSetId X) S.multisig c with
    | error e => rw [hm] at h; simp at h
    | ok x =>
      obtain ⟨m', mr⟩ := x
      rw [hm] at h
      simp only [Except.ok.injEq, Prod.mk.injEq] at h
      obtain ⟨rfl, rfl⟩ := h
      exact ⟨c, mr, rfl, hm, rfl, rfl⟩
  | prover msg env =>
    right
    simp only [sysExec] at h
    cases hh : handle X S.prover env msg with
    | error e => rw [hh] at h; simp at h
    | ok x =>
    obtain ⟨s1, out⟩ := x
    rw [hh] at h
    simp only at h
    cases hm : Multisig.exec C (workerSetId X) S.multisig ⟨self, env.height, out.toMultisig⟩ with
    | error e => rw [hm] at h; simp at h
    | ok x =>
    obtain ⟨m', mr⟩ := x
    rw [hm] at h
    simp only at h
    cases hx : exec X S.prover ⟨msg, env, some mr.data⟩ with
    | error e => rw [hx] at h; simp at h
    | ok x =>
    obtain ⟨p', pr⟩ := x
    rw [hx] at h
    simp only [Except.ok.injEq, Prod.mk.injEq] at h
    obtain ⟨rfl, rfl⟩ := h
    have hout : pr.out = out := by
      obtain ⟨s2, out', h1, h2, _⟩ := exec_ok hx
      rw [hh] at h1
      simp only [Except.ok.injEq, Prod.mk.injEq] at h1
      rw [h2, h1.2]
    refine ⟨msg, env, pr, mr, rfl, rfl, hx, ?_⟩
    rw [hout]
    exact hm

theorem reach_snoc (mcs : List Multisig.Call) {c : Multisig.Call} {m' : Multisig.State} {mr : Multisig.Resp}
    (h : Multisig.exec C (workerSetId X) (Multisig.stateAfter C (workerSetId X) mcfg mcs) c = .ok (m', mr)) :
    m' = Multisig.stateAfter C (workerSetId X) mcfg (mcs ++ [c]) := by
  unfold Multisig.stateAfter at h ⊢
  rw [runCalls_append, runCalls_cons, h]
  rfl

theorem preach_snoc (pcs : List Call) {c : Call} {p' : State} {pr : Resp}
    (h : exec X (stateAfter X cfg pcs) c = .ok (p', pr)) :
    p' = stateAfter X cfg (pcs ++ [c]) := by
  rw [stateAfter_snoc, h]

/-- both contracts are in reachable states -/
theorem sys_reach {S S' : Sys} {op : Op} {r : SysResp} (h : sysExec X C self S op = .ok (S', r))
    (hm : ∃ mcs, S.multisig = Multisig.stateAfter C (workerSetId X) mcfg mcs)
    (hp : ∃ pcs, S.prover = stateAfter X cfg pcs) :
    (∃ mcs, S'.multisig = Multisig.stateAfter C (workerSetId X) mcfg mcs) ∧
    (∃ pcs, S'.prover = stateAfter X cfg pcs) := by
  obtain ⟨mcs, hm⟩ := hm
  obtain ⟨pcs, hp⟩ := hp
  rcases sys_ok h with ⟨c, mr, _, h1, h2, _⟩ | ⟨msg, env, pr, mr, _, _, h1, h2⟩
  · rw [hm] at h1
    exact ⟨⟨_, reach_snoc mcs h1⟩, ⟨pcs, by rw [h2, hp]⟩⟩
  · rw [hm] at h2
    rw [hp] at h1
    exact ⟨⟨_, reach_snoc mcs h2⟩, ⟨_, preach_snoc pcs h1⟩⟩

/-- the session of a successful request: the multisig contract gives it the next number -/
theorem start_session {m m' : Multisig.State} {mr : Multisig.Resp} {wid : Str} {d : Bytes} {chain : ChainName}
    {height : Nat}
    (h : Multisig.exec C (workerSetId X) m ⟨self, height, (Out.startSigning wid d chain).toMultisig⟩ =
      .ok (m', mr)) :
    mr.data = some (m.counter + 1) ∧ m'.sessions (m.counter + 1) = some ⟨m.counter + 1, wid, d, .pending⟩ ∧
      m'.workerSets = m.workerSets ∧ ∃ ws, m.workerSets wid = some ws := by
  simp only [Out.toMultisig, Multisig.exec] at h
  obtain ⟨_, _, _, _, ws, hws, rfl, rfl⟩ := Multisig.start_ok.mp h
  exact ⟨rfl, by simp, rfl, ws, hws⟩

theorem session_none {mcs : List Multisig.Call} {m : Multisig.State}
    (h : m = Multisig.stateAfter C (workerSetId X) mcfg mcs) : m.sessions (m.counter + 1) = none := by
  cases hs : m.sessions (m.counter + 1) with
  | none => rfl
  | some se =>
    have hb := (Multisig.invariants C (workerSetId X) mcfg mcs).1
    rw [← h] at hb
    have := (hb.sess _ se hs).2.2.1
    omega

/-- what a transaction of the prover that opens a session does -/
theorem opened_of_event {S S' : Sys} {op : Op} {r : SysResp} (hx : sysExec X C self S op = .ok (S', r))
    (hm : ∃ mcs, S.multisig = Multisig.stateAfter C (workerSetId X) mcfg mcs)
    (hp : ∃ pcs, S.prover = stateAfter X cfg pcs) {pr : Resp} (hr : r = some pr) {sid : Nat} {bid : Bytes}
    (he : pr.event = some (sid, bid)) :
    S'.prover.sessionBatch = S.prover.sessionBatch.set sid bid ∧
    ∃ b cur digest, Opened X cfg ⟨S, op, r, S'⟩ sid bid b cur digest := by
  rcases sys_ok hx with ⟨c, mr, _, _, _, h⟩ | ⟨msg, env, pr', mr, _, h, h1, h2⟩
  · rw [h] at hr; simp at hr
  rw [hr] at h
  simp only [Option.some.injEq] at h
  subst h
  obtain ⟨pcs, hp⟩ := hp
  obtain ⟨mcs, hm⟩ := hm
  have hcfg : S.prover.config = cfg := by rw [hp]; exact config_stateAfter X cfg pcs
  cases exec_effect h1 with
  | first new hm' hc hn hs hr' => rw [hr'] at he; simp at he
  | confirmed ws ops hm' hpend ho hv hs hr' => rw [hr'] at he; simp at he
  | reused ids b cur digest sid' hm' hb hg hc hd ha hs hr' =>
    rw [hr'] at he h2
    simp only [Option.some.injEq, Prod.mk.injEq] at he
    obtain ⟨rfl, rfl⟩ := he
    obtain ⟨g1, g2, g3, g4⟩ := start_session h2
    simp only [Option.some.injEq] at ha
    rw [g1] at ha
    simp only [Option.some.injEq] at ha
    have hb' := hb
    rw [hp] at hb'
    obtain ⟨ws, e, _, msgs, hbid, _, hbatch, _⟩ := C57_stored X cfg pcs _ b hb'
    refine ⟨by rw [hs], b, cur, digest, ⟨⟨pr, hr, by rw [hr']⟩, hc, ?_, ?_, ?_, ?_⟩⟩
    · rw [hs, hbid]; exact hb
    · rw [← digest_eq hbatch.encoder]; exact hd
    · rw [← ha]; exact g2
    · rw [← ha]; exact session_none hm
  | built ids msgs ws b cur digest sid' hm' hw hb hpend hc hd ha hs hr' =>
    rw [hr'] at he h2
    simp only [Option.some.injEq, Prod.mk.injEq] at he
    obtain ⟨rfl, rfl⟩ := he
    obtain ⟨g1, g2, g3, g4⟩ := start_session h2
    simp only [Option.some.injEq] at ha
    rw [g1] at ha
    simp only [Option.some.injEq] at ha
    rw [hcfg] at hb
    have hbatch := (isBatch_build hb).1
    refine ⟨by rw [hs], b, cur, digest, ⟨⟨pr, hr, by rw [hr']⟩, hc, ?_, ?_, ?_, ?_⟩⟩
    · rw [hs]; simp
    · rw [← digest_eq hbatch.encoder]; exact hd
    · rw [← ha]; exact g2
    · rw [← ha]; exact session_none hm

/-- a transaction without such an event leaves the links between sessions and batches as they are -/
theorem no_event {S S' : Sys} {op : Op} {r : SysResp} (hx : sysExec X C self S op = .ok (S', r))
    (h : ∀ pr sid bid, r = some pr → pr.event ≠ some (sid, bid)) :
    S'.prover.sessionBatch = S.prover.sessionBatch ∧ S'.prover.batches = S.prover.batches := by
  rcases sys_ok hx with ⟨c, mr, _, _, h1, _⟩ | ⟨msg, env, pr, mr, _, hr, h1, h2⟩
  · rw [h1]; exact ⟨rfl, rfl⟩
  · cases exec_effect h1 with
    | first new hm' hc hn hs hr' => rw [hs]; exact ⟨rfl, rfl⟩
    | confirmed ws ops hm' hpend ho hv hs hr' => rw [hs]; exact ⟨rfl, rfl⟩
    | reused ids b cur digest sid' hm' hb hg hc hd ha hs hr' =>
      exact absurd (by rw [hr']) (h pr sid' b.id hr)
    | built ids msgs ws b cur digest sid' hm' hw hb hpend hc hd ha hs hr' =>
      exact absurd (by rw [hr']) (h pr sid' b.id hr)

/-- the multisig contract never changes what a session is about -/
theorem session_kept {S S' : Sys} {op : Op} {r : SysResp} (hx : sysExec X C self S op = .ok (S', r))
    (hm : ∃ mcs, S.multisig = Multisig.stateAfter C (workerSetId X) mcfg mcs) {sid : Nat}
    {se : Multisig.Session} (h : S.multisig.sessions sid = some se) :
    ∃ se', S'.multisig.sessions sid = some se' ∧ se'.workerSetId = se.workerSetId ∧ se'.msg = se.msg := by
  obtain ⟨mcs, hm⟩ := hm
  have key : ∀ c mr, Multisig.exec C (workerSetId X) S.multisig c = .ok (S'.multisig, mr) →
      ∃ se', S'.multisig.sessions sid = some se' ∧ se'.workerSetId = se.workerSetId ∧ se'.msg = se.msg := by
    intro c mr h1
    rw [hm] at h1 h
    rw [reach_snoc mcs h1]
    obtain ⟨se', g1, _, g2, g3⟩ := Multisig.C48_immutable C (workerSetId X) mcfg mcs [c] sid se h
    exact ⟨se', g1, g2, g3⟩
  rcases sys_ok hx with ⟨c, mr, _, h1, _⟩ | ⟨msg, env, pr, mr, _, _, _, h2⟩
  · exact key _ _ h1
  · exact key _ _ h2

/-! ### C58 -/

variable (X C self cfg mcfg)

/-- C58: in any history, every session the prover has linked to a batch was opened by one of its
transactions, for the digest of the batch stored then, under the worker set current then; the multisig
contract still has the session with that message and that worker set. -/
theorem C58_session (ops : List Op) (sid : Nat) (bid : Bytes)
    (h : (sysAfter X C self cfg mcfg ops).prover.sessionBatch sid = some bid) :
    ∃ e ∈ sysLog X C self cfg mcfg ops, ∃ b cur digest se, Opened X cfg e sid bid b cur digest ∧
      (sysAfter X C self cfg mcfg ops).multisig.sessions sid = some se ∧
      se.msg = digest ∧ se.workerSetId = workerSetId X cur := by
  revert h
  revert bid sid
  unfold sysAfter sysLog
  refine (steps_inv (sysExec X C self) (P := fun log S =>
    (∃ mcs, S.multisig = Multisig.stateAfter C (workerSetId X) mcfg mcs) ∧
    (∃ pcs, S.prover = stateAfter X cfg pcs) ∧
    ∀ sid bid, S.prover.sessionBatch sid = some bid →
      ∃ e ∈ log, ∃ b cur digest se, Opened X cfg e sid bid b cur digest ∧
      S.multisig.sessions sid = some se ∧ se.msg = digest ∧ se.workerSetId = workerSetId X cur)
    (sysInit cfg mcfg) ⟨⟨[], rfl⟩, ⟨[], rfl⟩, by intro sid bid h; simp [sysInit, init] at h⟩ ?_ ops).2.2
  rintro log S op S' r ⟨hm, hp, ih⟩ hx
  obtain ⟨hm', hp'⟩ := sys_reach hx hm hp
  refine ⟨hm', hp', ?_⟩
  intro sid bid hsb
  have old : S.prover.sessionBatch sid = some bid →
      ∃ e ∈ log ++ [⟨S, op, r, S'⟩], ∃ b cur digest se, Opened X cfg e sid bid b cur digest ∧
      S'.multisig.sessions sid = some se ∧ se.msg = digest ∧ se.workerSetId = workerSetId X cur := by
    intro h
    obtain ⟨e, he, b, cur, digest, se, h1, h2, h3, h4⟩ := ih sid bid h
    obtain ⟨se', g1, g2, g3⟩ := session_kept hx hm h2
    exact ⟨e, List.mem_append_left _ he, b, cur, digest, se', h1, g1, by rw [g3, h3], by rw [g2, h4]⟩
  by_cases hev : ∃ pr sid' bid', r = some pr ∧ pr.event = some (sid', bid')
  · obtain ⟨pr, sid', bid', hr, he⟩ := hev
    obtain ⟨h1, b, cur, digest, hop⟩ := opened_of_event hx hm hp hr he
    rw [h1, KV.set_apply] at hsb
    split at hsb
    · rename_i heq
      simp only [Option.some.injEq] at hsb
      subst hsb
      subst heq
      exact ⟨_, List.mem_append_right _ (List.mem_singleton_self _), b, cur, digest, _, hop, hop.session, rfl,
        rfl⟩
    · exact old hsb
  · push Not at hev
    obtain ⟨h1, _⟩ := no_event hx (fun pr sid bid hr he => hev pr sid bid hr he)
    rw [h1] at hsb
    exact old hsb

/-- C58: a session stays linked to its batch for ever. -/
theorem C58_link_permanent (ops₁ ops₂ : List Op) (sid : Nat) (bid : Bytes)
    (h : (sysAfter X C self cfg mcfg ops₁).prover.sessionBatch sid = some bid) :
    (sysAfter X C self cfg mcfg (ops₁ ++ ops₂)).prover.sessionBatch sid = some bid := by
  have reach : ∀ ops, (∃ mcs, (sysAfter X C self cfg mcfg ops).multisig =
        Multisig.stateAfter C (workerSetId X) mcfg mcs) ∧
      (∃ pcs, (sysAfter X C self cfg mcfg ops).prover = stateAfter X cfg pcs) := by
    intro ops
    exact runCalls_inv (sysExec X C self) (P := fun S : Sys =>
      (∃ mcs, S.multisig = Multisig.stateAfter C (workerSetId X) mcfg mcs) ∧
      (∃ pcs, S.prover = stateAfter X cfg pcs))
      (fun S op S' r hi hx => sys_reach hx hi.1 hi.2) (sysInit cfg mcfg) ⟨⟨[], rfl⟩, ⟨[], rfl⟩⟩ ops
  induction ops₂ using List.reverseRecOn with
  | nil => simpa using h
  | append_singleton ops₂ op ih =>
    rw [← List.append_assoc]
    have hsess := C58_session X C self cfg mcfg (ops₁ ++ ops₂) sid bid ih
    obtain ⟨hm, hp⟩ := reach (ops₁ ++ ops₂)
    revert ih hsess hm hp
    unfold sysAfter
    rw [runCalls_append (cs := ops₁ ++ ops₂), runCalls_cons, runCalls_nil]
    generalize runCalls (sysExec X C self) (sysInit cfg mcfg) (ops₁ ++ ops₂) = S
    intro ih hsess hm hp
    cases hx : sysExec X C self S op with
    | error e => exact ih
    | ok x =>
      obtain ⟨S', r⟩ := x
      show S'.prover.sessionBatch sid = some bid
      by_cases hev : ∃ pr sid' bid', r = some pr ∧ pr.event = some (sid', bid')
      · obtain ⟨pr, sid', bid', hr, he⟩ := hev
        obtain ⟨h1, b, cur, digest, hop⟩ := opened_of_event hx hm hp hr he
        obtain ⟨_, _, _, _, _, se, _, h2, _⟩ := hsess
        rw [h1, KV.set_apply]
        split
        · rename_i heq
          subst heq
          have := hop.fresh
          simp only at this
          rw [h2] at this
          simp at this
        · exact ih
      · push Not at hev
        obtain ⟨h1, _⟩ := no_event hx (fun pr sid bid hr he => hev pr sid bid hr he)
        rw [h1]
        exact ih

variable {X C self cfg mcfg}

/-- where a stored batch comes from -/
structure Made (X : Ext) (cfg : Config) (e : Step Sys Op SysResp) (bid : Bytes) (b : Batch)
    (ws : Option WorkerSet) (msgs : List Message) : Prop where
  id : bid = batchId X (msgs.map (·.ccId)) ws
  build : buildBatch X cfg ws msgs = .ok b
  asked : asked e.call = .ok msgs
  plain : OwnIds [e] → ∀ m ∈ msgs, PlainId m.ccId
  requested : OwnIds [e] → msgs.map (·.ccId) ∈ requestedIds [e]
  rotates : ∀ w, ws = some w → rotates e = true ∧ w.createdAt = e.call.height ∧ w ∈ builtSets cfg [e]

theorem builtSets_mono {e : Step Sys Op SysResp} {log : List (Step Sys Op SysResp)} (he : e ∈ log)
    {w : WorkerSet} (h : w ∈ builtSets cfg [e]) : w ∈ builtSets cfg log := by
  unfold builtSets at h ⊢
  obtain ⟨e', h1, h2⟩ := List.mem_filterMap.mp h
  rw [List.mem_singleton] at h1
  subst h1
  exact List.mem_filterMap.mpr ⟨e', he, h2⟩

theorem requestedIds_mono {e : Step Sys Op SysResp} {log : List (Step Sys Op SysResp)} (he : e ∈ log)
    {ids : List CCId} (h : ids ∈ requestedIds [e]) : ids ∈ requestedIds log := by
  unfold requestedIds at h ⊢
  rcases List.mem_cons.mp h with h | h
  · exact List.mem_cons.mpr (Or.inl h)
  · obtain ⟨e', h1, h2⟩ := List.mem_filterMap.mp h
    rw [List.mem_singleton] at h1
    subst h1
    exact List.mem_cons.mpr (Or.inr (List.mem_filterMap.mpr ⟨e', he, h2⟩))

theorem ownIds_mono {log log' : List (Step Sys Op SysResp)} (hsub : ∀ e ∈ log, e ∈ log')
    (h : OwnIds log') : OwnIds log := fun e he => h e (hsub e he)

theorem noCollisions_mono {log log' : List (Step Sys Op SysResp)} (hsub : ∀ e ∈ log, e ∈ log')
    (h : NoCollisions X cfg log') : NoCollisions X cfg log := by
  have h1 : ∀ w ∈ builtSets cfg log, w ∈ builtSets cfg log' := by
    intro w hw
    obtain ⟨e, he, h2⟩ := List.mem_filterMap.mp hw
    exact List.mem_filterMap.mpr ⟨e, hsub e he, h2⟩
  have h2 : ∀ ids ∈ requestedIds log, ids ∈ requestedIds log' := by
    intro ids hi
    rcases List.mem_cons.mp hi with hi | hi
    · exact List.mem_cons.mpr (Or.inl hi)
    · obtain ⟨e, he, h3⟩ := List.mem_filterMap.mp hi
      exact List.mem_cons.mpr (Or.inr (List.mem_filterMap.mpr ⟨e, hsub e he, h3⟩))
  have h3 : ∀ ws ∈ none :: (builtSets cfg log).map some, ws ∈ none :: (builtSets cfg log').map some := by
    intro ws hw
    rcases List.mem_cons.mp hw with hw | hw
    · exact List.mem_cons.mpr (Or.inl hw)
    · obtain ⟨w, hw', rfl⟩ := List.mem_map.mp hw
      exact List.mem_cons.mpr (Or.inr (List.mem_map.mpr ⟨w, h1 w hw', rfl⟩))
  exact ⟨fun w hw w' hw' => h.sets w (h1 w hw) w' (h1 w' hw'),
    fun i hi i' hi' ws hw ws' hw' => h.texts i (h2 i hi) i' (h2 i' hi') ws (h3 ws hw) ws' (h3 ws' hw')⟩

/-- two batches made under the same id are the same -/
theorem made_unique {log : List (Step Sys Op SysResp)} (hown : OwnIds log) (hnc : NoCollisions X cfg log)
    (hone : OneRotationPerBlock log) {e e' : Step Sys Op SysResp} (he : e ∈ log) (he' : e' ∈ log) {bid : Bytes}
    {b b' : Batch} {ws ws' : Option WorkerSet} {msgs msgs' : List Message} (h : Made X cfg e bid b ws msgs)
    (h' : Made X cfg e' bid b' ws' msgs') (hws : ws' ≠ none) : b = b' := by
  have ho : OwnIds [e] := ownIds_mono (by simpa using he) hown
  have ho' : OwnIds [e'] := ownIds_mono (by simpa using he') hown
  have hid : batchId X (msgs.map (·.ccId)) ws = batchId X (msgs'.map (·.ccId)) ws' := by rw [← h.id, ← h'.id]
  have hopt : ∀ {e : Step Sys Op SysResp} {b : Batch} {ws : Option WorkerSet} {msgs : List Message},
      e ∈ log → Made X cfg e bid b ws msgs → ws ∈ none :: (builtSets cfg log).map some := by
    intro e b ws msgs he h
    cases ws with
    | none => simp
    | some w =>
      exact List.mem_cons.mpr (Or.inr (List.mem_map.mpr ⟨w, builtSets_mono he (h.rotates w rfl).2.2, rfl⟩))
  rcases C56_identifies X _ _ ws ws' (by simpa using h.plain ho) (by simpa using h'.plain ho') hid with
    ⟨_, hw⟩ | hcol | ⟨w, w', hw, hw', hne, hcol⟩
  · subst hw
    obtain ⟨w, hw⟩ := Option.ne_none_iff_exists'.mp hws
    have h1 := h.rotates w hw
    have h2 := h'.rotates w hw
    have := hone e he e' he' h1.1 h2.1 (by rw [← h1.2.1, h2.2.1])
    rw [h.asked, h'.asked] at this
    simp only [Except.ok.injEq] at this
    subst this
    have := h.build
    rw [h'.build] at this
    simpa using this.symm
  · exact absurd hcol (hnc.texts _ (requestedIds_mono he (h.requested ho)) _
      (requestedIds_mono he' (h'.requested ho')) ws (hopt he h) ws' (hopt he' h'))
  · exact absurd (hnc.sets w (builtSets_mono he (h.rotates w hw).2.2) w'
      (builtSets_mono he' (h'.rotates w' hw').2.2) hcol) hne

theorem head_transfer {w : WorkerSet} {msgs : List Message} {b : Batch} (h : IsBatch X cfg (some w) msgs b) :
    b.data.commands.head?.map (·.ty) = some .transferOperatorship := by
  obtain ⟨t, a, h1, ⟨c, rfl, h2⟩, _⟩ := h.commands
  rw [h1]
  simp [h2.1]

/-- what a step does to the stored batches -/
theorem batches_step {S S' : Sys} {op : Op} {r : SysResp} (hx : sysExec X C self S op = .ok (S', r))
    (hp : ∃ pcs, S.prover = stateAfter X cfg pcs) :
    S'.prover.batches = S.prover.batches ∨
    ∃ ws msgs b, S'.prover.batches = S.prover.batches.set b.id b ∧
      Made X cfg ⟨S, op, r, S'⟩ b.id b ws msgs ∧
      (ws = none → OwnIds [⟨S, op, r, S'⟩] → S.prover.batches b.id = none) := by
  obtain ⟨pcs, hp⟩ := hp
  have hcfg : S.prover.config = cfg := by rw [hp]; exact config_stateAfter X cfg pcs
  rcases sys_ok hx with ⟨c, mr, _, _, h1, _⟩ | ⟨msg, env, pr, mr, rfl, rfl, h1, h2⟩
  · left; rw [h1]
  cases exec_effect h1 with
  | first new hm' hc hn hs hr' => left; rw [hs]
  | confirmed ws ops hm' hpend ho hv hs hr' => left; rw [hs]
  | reused ids b cur digest sid' hm' hb hg hc hd ha hs hr' => left; rw [hs]
  | built ids msgs ws b cur digest sid' hm' hw hb hpend hc hd ha hs hr' =>
    right
    rw [hcfg] at hb
    obtain ⟨hbatch, hbid⟩ := isBatch_build hb
    have own : OwnIds [⟨S, .prover msg env, some pr, S'⟩] → msgs.map (·.ccId) = ids ∧ ∀ c ∈ ids, PlainId c := by
      intro ho
      have := ho _ (List.mem_singleton_self _)
      rcases hm' with ⟨hm', hg, _⟩ | ⟨_, hi, hm, _⟩
      · simp only at hm'
        subst hm'
        obtain ⟨hg, _⟩ := getMessages_ok.mp hg
        simp only at this hg
        rw [hg] at this
        exact this
      · subst hi; subst hm; simp
    refine ⟨ws, msgs, b, by rw [hs], ⟨hbid, hb, ?_, ?_, ?_, ?_⟩, ?_⟩
    · rcases hm' with ⟨hm', hg, _⟩ | ⟨hm', hi, hm, _⟩
      · simp only at hm'
        subst hm'
        exact (getMessages_ok.mp hg).1
      · simp only at hm'
        subst hm'
        subst hm
        rfl
    · intro ho m hm
      obtain ⟨g1, g2⟩ := own ho
      exact g2 _ (by rw [← g1]; exact List.mem_map_of_mem hm)
    · intro ho
      obtain ⟨g1, _⟩ := own ho
      rw [g1]
      rcases hm' with ⟨hm', _⟩ | ⟨_, hi, _⟩
      · simp only at hm'
        subst hm'
        simp [requestedIds]
      · subst hi; simp [requestedIds]
    · intro w hw'
      subst hw'
      have hmk : makeWorkerSet cfg env = .ok w := by
        obtain ⟨new, cur', g1, _, g2⟩ := nextWorkerSet_ok.mp hw
        rw [hcfg] at g1
        split at g2
        · simp only [Option.some.injEq] at g2
          subst g2
          exact g1
        · simp at g2
      refine ⟨?_, ?_, ?_⟩
      · have := head_transfer hbatch
        simp only [rotates, hr', hs, KV.set_apply, if_true]
        exact decide_eq_true this
      · obtain ⟨workers, _, hset⟩ := setOf_makeWorkerSet hmk
        exact hset.createdAt
      · simp [builtSets, hmk]
    · rintro hws ho
      subst hws
      obtain ⟨g1, _⟩ := own ho
      rcases hm' with ⟨hm', _, hnone⟩ | ⟨_, _, _, w, hw'⟩
      · rw [hbid, g1]; exact hnone
      · simp at hw'

/-- batches are not overwritten -/
theorem batches_kept (ops : List Op) (hown : OwnIds (sysLog X C self cfg mcfg ops))
    (hnc : NoCollisions X cfg (sysLog X C self cfg mcfg ops))
    (hone : OneRotationPerBlock (sysLog X C self cfg mcfg ops)) (e : Step Sys Op SysResp)
    (he : e ∈ sysLog X C self cfg mcfg ops) (bid : Bytes) (b : Batch)
    (hb : e.post.prover.batches bid = some b) :
    (sysAfter X C self cfg mcfg ops).prover.batches bid = some b := by
  revert hown hnc hone he hb
  revert e bid b
  unfold sysAfter sysLog
  refine fun e bid b h1 h2 h3 he hb => (steps_inv (sysExec X C self) (P := fun log S =>
    (∃ mcs, S.multisig = Multisig.stateAfter C (workerSetId X) mcfg mcs) ∧
    (∃ pcs, S.prover = stateAfter X cfg pcs) ∧
    (∀ bid b, S.prover.batches bid = some b → ∃ e ∈ log, ∃ ws msgs, Made X cfg e bid b ws msgs) ∧
    (OwnIds log → NoCollisions X cfg log → OneRotationPerBlock log → ∀ e ∈ log, ∀ bid b,
      e.post.prover.batches bid = some b → S.prover.batches bid = some b))
    (sysInit cfg mcfg) ⟨⟨[], rfl⟩, ⟨[], rfl⟩, by intro bid b h; simp [sysInit, init] at h, by simp⟩ ?_
      ops).2.2.2 h1 h2 h3 e he bid b hb
  rintro log S op S' r ⟨hm, hp, hmade, ih⟩ hx
  obtain ⟨hm', hp'⟩ := sys_reach hx hm hp
  have hsub : ∀ e ∈ log, e ∈ log ++ [⟨S, op, r, S'⟩] := fun e he => List.mem_append_left _ he
  have hlast : (⟨S, op, r, S'⟩ : Step Sys Op SysResp) ∈ log ++ [⟨S, op, r, S'⟩] :=
    List.mem_append_right _ (List.mem_singleton_self _)
  refine ⟨hm', hp', ?_, ?_⟩
  · intro bid b hb
    have old : S.prover.batches bid = some b →
        ∃ e ∈ log ++ [⟨S, op, r, S'⟩], ∃ ws msgs, Made X cfg e bid b ws msgs := by
      intro h
      obtain ⟨e, he, rest⟩ := hmade bid b h
      exact ⟨e, hsub e he, rest⟩
    rcases batches_step hx hp with h | ⟨ws, msgs, b', h, hmd, _⟩
    · rw [h] at hb; exact old hb
    · rw [h, KV.set_apply] at hb
      split at hb
      · rename_i hid
        simp only [Option.some.injEq] at hb
        subst hb
        subst hid
        exact ⟨_, hlast, ws, msgs, hmd⟩
      · exact old hb
  · intro hown hnc hone
    have ih' := ih (ownIds_mono hsub hown) (noCollisions_mono hsub hnc)
      (fun e he e' he' => hone e (hsub e he) e' (hsub e' he'))
    intro e he bid b hb
    rcases List.mem_append.mp he with he | he
    swap
    · rw [List.mem_singleton] at he; subst he; exact hb
    have hold := ih' e he bid b hb
    rcases batches_step hx hp with h | ⟨ws, msgs, b', h, hmd, hnone⟩
    · rw [h]; exact hold
    · rw [h, KV.set_apply]
      split
      · rename_i hid
        subst hid
        obtain ⟨e0, he0, ws0, msgs0, hmd0⟩ := hmade _ _ hold
        congr 1
        by_cases hws : ws = none
        · have := hnone hws (ownIds_mono (by simp) hown)
          rw [this] at hold
          simp at hold
        · exact (made_unique hown hnc hone (hsub _ he0) hlast hmd0 hmd hws).symm
      · exact hold

variable (X C self cfg mcfg)

/-- C58, partially: the batch that `GetProof` shows for a session has exactly the digest the session is
signing, at any later time. Missing from the full claim: histories in which two proof requests in the same
block both rotate the worker set and name the same messages in a different order (`C58_counterexample`).
Apart from that, it is assumed that the gateway answers with the messages that were asked for, with plain
ids, and that the hashes have no collisions among what occurs. -/
theorem C58_bound_partial (ops : List Op) (hown : OwnIds (sysLog X C self cfg mcfg ops))
    (hnc : NoCollisions X cfg (sysLog X C self cfg mcfg ops))
    (hone : OneRotationPerBlock (sysLog X C self cfg mcfg ops)) (sid : Nat) (p : Proof)
    (h : sysProof X (sysAfter X C self cfg mcfg ops) sid = .ok p) :
    ∃ se, (sysAfter X C self cfg mcfg ops).multisig.sessions sid = some se ∧
      dataDigest X cfg.encoder p.data = .ok se.msg := by
  have hb : ∃ bid b, (sysAfter X C self cfg mcfg ops).prover.sessionBatch sid = some bid ∧
      (sysAfter X C self cfg mcfg ops).prover.batches bid = some b ∧ p.data = b.data := by
    unfold sysProof getProof at h
    generalize sysAfter X C self cfg mcfg ops = S at h ⊢
    split at h
    · simp at h
    rename_i bid h1
    split at h
    · simp at h
    rename_i b h2
    refine ⟨bid, b, h1, h2, ?_⟩
    split at h
    · simp at h
    split at h
    · simp at h
    split at h
    · simp only [Except.ok.injEq] at h; rw [← h]
    · split at h
      · simp at h
      · split at h
        · simp at h
        · simp at h
        · simp only [Except.ok.injEq] at h; rw [← h]
  obtain ⟨bid, b, h1, h2, h3⟩ := hb
  obtain ⟨e, he, b', cur, digest, se, hop, hse, hmsg, _⟩ := C58_session X C self cfg mcfg ops sid bid h1
  have := batches_kept ops hown hnc hone e he bid b' hop.batch
  rw [h2] at this
  simp only [Option.some.injEq] at this
  subst this
  exact ⟨se, hse, by rw [h3, hmsg]; exact hop.digestOf⟩

end Amp.Prover
