import Verif.Prover.Model
import Verif.Base.Steps

/-!
# What successful calls of the prover do
-/

namespace Amp.Prover

open Amp.Encoding
open Amp.Multisig (Signature PublicKey Signer WorkerSet)
open Amp.Router (CCId Message ChainName)

variable {X : Ext}

theorem getMessages_ok {s : State} {env : Env} {ids : List CCId} {msgs : List Message} :
    getMessages s env ids = .ok msgs ↔
      env.gateway ids = .ok msgs ∧ msgs.length = ids.length ∧
        ∀ m ∈ msgs, m.destinationChain = s.config.chainName := by
  unfold getMessages
  cases hg : env.gateway ids with
  | error e => simp
  | ok ms =>
    simp only
    by_cases hl : ms.length ≠ ids.length
    · rw [if_pos hl]
      constructor
      · intro h; simp at h
      · rintro ⟨h1, h2, _⟩
        simp only [Except.ok.injEq] at h1
        subst h1
        exact absurd h2 hl
    · rw [if_neg hl]
      have hl' : ms.length = ids.length := not_not.mp hl
      by_cases ha : ms.any (fun m => m.destinationChain ≠ s.config.chainName) = true
      · rw [if_pos ha]
        constructor
        · intro h; simp at h
        · rintro ⟨h1, _, h3⟩
          simp only [Except.ok.injEq] at h1
          subst h1
          obtain ⟨m, hm, hne⟩ := List.any_eq_true.mp ha
          simp only [ne_eq, decide_eq_true_eq] at hne
          exact absurd (h3 m hm) hne
      · rw [if_neg ha]
        simp only [Except.ok.injEq]
        constructor
        · rintro rfl
          refine ⟨rfl, hl', ?_⟩
          intro m hm
          by_contra hne
          exact ha (List.any_eq_true.mpr ⟨m, hm, by simpa using hne⟩)
        · rintro ⟨h1, _, _⟩
          exact h1

theorem nextWorkerSet_ok {s : State} {env : Env} {r : Option WorkerSet} :
    nextWorkerSet s env = .ok r ↔ ∃ new cur, makeWorkerSet s.config env = .ok new ∧ s.current = some cur ∧
      r = if shouldUpdate new cur s.config.diffThreshold then some new else none := by
  unfold nextWorkerSet
  cases hm : makeWorkerSet s.config env with
  | error e => simp
  | ok new =>
    simp only
    cases hc : s.current with
    | none => simp
    | some cur =>
      simp only [Except.ok.injEq]
      constructor
      · rintro rfl
        exact ⟨new, cur, rfl, rfl, rfl⟩
      · rintro ⟨n, c, h1, h2, rfl⟩
        simp only [Option.some.injEq] at h2
        subst h1
        subst h2
        rfl

theorem saveNext_ok {s s1 : State} {new : WorkerSet} :
    saveNext s new = .ok s1 ↔
      (∀ n, s.next = some n → n.signers = new.signers ∧ n.threshold = new.threshold) ∧
        s1 = { s with next := some new } := by
  unfold saveNext differentSetInProgress
  cases hn : s.next with
  | none => simp [eq_comm]
  | some n =>
    simp only
    by_cases h : n.signers ≠ new.signers ∨ n.threshold ≠ new.threshold
    · rw [if_pos (decide_eq_true h)]
      constructor
      · intro h'; simp at h'
      · rintro ⟨h1, _⟩
        obtain ⟨h2, h3⟩ := h1 n rfl
        rcases h with h | h
        · exact absurd h2 h
        · exact absurd h3 h
    · rw [if_neg (by simpa using h)]
      simp only [Except.ok.injEq]
      push Not at h
      constructor
      · rintro rfl
        refine ⟨?_, rfl⟩
        intro m hm
        simp only [Option.some.injEq] at hm
        subst hm
        exact h
      · rintro ⟨_, rfl⟩
        rfl

/-- the pending worker set after a rotation may have been started -/
def pendingAfter (s : State) : Option WorkerSet → Option WorkerSet
  | none => s.next
  | some ws => some ws

theorem newBatch_ok {s s1 : State} {env : Env} {msgs : List Message} {b : Batch} :
    newBatch X s env msgs = .ok (s1, b) ↔
      ∃ ws, nextWorkerSet s env = .ok ws ∧ buildBatch X s.config ws msgs = .ok b ∧
        (∀ w n, ws = some w → s.next = some n → n.signers = w.signers ∧ n.threshold = w.threshold) ∧
        s1 = { s with next := pendingAfter s ws, batches := s.batches.set b.id b } := by
  unfold newBatch
  cases hn : nextWorkerSet s env with
  | error e => simp
  | ok ws =>
    simp only [Except.ok.injEq]
    cases ws with
    | none =>
      simp only
      cases hb : buildBatch X s.config none msgs with
      | error e => simp [hb]
      | ok b' =>
        simp only [Except.ok.injEq, Prod.mk.injEq]
        constructor
        · rintro ⟨rfl, rfl⟩
          exact ⟨none, rfl, hb, by simp, rfl⟩
        · rintro ⟨ws, rfl, h2, _, rfl⟩
          rw [hb] at h2
          simp only [Except.ok.injEq] at h2
          subst h2
          exact ⟨rfl, rfl⟩
    | some w =>
      simp only
      cases hs : saveNext s w with
      | error e =>
        simp only
        constructor
        · intro h; simp at h
        · rintro ⟨ws, rfl, _, h3, _⟩
          have : saveNext s w = .ok { s with next := some w } :=
            saveNext_ok.mpr ⟨fun n hn' => h3 w n rfl hn', rfl⟩
          rw [this] at hs
          simp at hs
      | ok s' =>
        obtain ⟨h1, rfl⟩ := saveNext_ok.mp hs
        simp only
        cases hb : buildBatch X s.config (some w) msgs with
        | error e =>
          simp only
          constructor
          · intro h; simp at h
          · rintro ⟨ws, rfl, h2, _, _⟩
            rw [hb] at h2
            simp at h2
        | ok b' =>
          simp only [Except.ok.injEq, Prod.mk.injEq]
          constructor
          · rintro ⟨rfl, rfl⟩
            refine ⟨some w, rfl, hb, ?_, rfl⟩
            intro w' n hw hn'
            simp only [Option.some.injEq] at hw
            subst hw
            exact h1 n hn'
          · rintro ⟨ws, rfl, h2, _, rfl⟩
            rw [hb] at h2
            simp only [Except.ok.injEq] at h2
            subst h2
            exact ⟨rfl, rfl⟩

theorem constructProof_ok {s s' : State} {env : Env} {ids : List CCId} {out : Out}
    (h : constructProof X s env ids = .ok (s', out)) :
    ∃ msgs s1 b cur digest, getMessages s env ids = .ok msgs ∧
      ((s.batches (batchId X ids none) = some b ∧ s1 = s) ∨
        (s.batches (batchId X ids none) = none ∧ newBatch X s env msgs = .ok (s1, b))) ∧
      s.current = some cur ∧ b.digest X = .ok digest ∧ s' = { s1 with replyBatch := some b.id } ∧
      out = .startSigning (workerSetId X cur) digest s.config.chainName := by
  unfold constructProof at h
  cases hg : getMessages s env ids with
  | error e => rw [hg] at h; simp at h
  | ok msgs =>
  rw [hg] at h
  simp only at h
  have key : ∀ s1 b, ((s.batches (batchId X ids none) = some b ∧ s1 = s) ∨
      (s.batches (batchId X ids none) = none ∧ newBatch X s env msgs = .ok (s1, b))) →
      (match s1.current with
        | none => (Except.error .std : Except Err (State × Out))
        | some cur => match b.digest X with
          | .error e => .error e
          | .ok digest => .ok ({ s1 with replyBatch := some b.id },
            .startSigning (workerSetId X cur) digest s.config.chainName)) = .ok (s', out) →
      ∃ msgs' s1 b cur digest, (.ok msgs : Except Err (List Message)) = .ok msgs' ∧
      ((s.batches (batchId X ids none) = some b ∧ s1 = s) ∨
        (s.batches (batchId X ids none) = none ∧ newBatch X s env msgs' = .ok (s1, b))) ∧
      s.current = some cur ∧ b.digest X = .ok digest ∧ s' = { s1 with replyBatch := some b.id } ∧
      out = .startSigning (workerSetId X cur) digest s.config.chainName := by
    intro s1 b hsrc hx
    have hcur : s1.current = s.current := by
      rcases hsrc with ⟨_, rfl⟩ | ⟨_, hnb⟩
      · rfl
      · obtain ⟨ws, _, _, _, rfl⟩ := newBatch_ok.mp hnb
        rfl
    cases hc : s1.current with
    | none => rw [hc] at hx; simp at hx
    | some cur =>
      rw [hc] at hx
      simp only at hx
      cases hd : b.digest X with
      | error e => rw [hd] at hx; simp at hx
      | ok digest =>
        rw [hd] at hx
        simp only [Except.ok.injEq, Prod.mk.injEq] at hx
        exact ⟨msgs, s1, b, cur, digest, rfl, hsrc, by rw [← hcur, hc], hd, by rw [← hx.1, hc], hx.2.symm⟩
  cases hb : s.batches (batchId X ids none) with
  | some b =>
    rw [hb] at h
    simp only at h
    rw [hb] at key
    exact key s b (Or.inl ⟨rfl, rfl⟩) h
  | none =>
    rw [hb] at h
    simp only at h
    cases hnb : newBatch X s env msgs with
    | error e => rw [hnb] at h; simp at h
    | ok x =>
      obtain ⟨s1, b⟩ := x
      rw [hnb] at h
      simp only at h
      rw [hb] at key
      exact key s1 b (Or.inr ⟨rfl, hnb⟩) h

theorem updateWorkerSet_ok {s s' : State} {env : Env} {out : Out}
    (h : updateWorkerSet X s env = .ok (s', out)) :
    (s.current = none ∧ ∃ new, makeWorkerSet s.config env = .ok new ∧
        s' = { s with current := some new } ∧ out = .registerWorkerSet new) ∨
    (∃ cur new b digest, s.current = some cur ∧ nextWorkerSet s env = .ok (some new) ∧
        (∀ n, s.next = some n → n.signers = new.signers ∧ n.threshold = new.threshold) ∧
        buildBatch X s.config (some new) [] = .ok b ∧ b.digest X = .ok digest ∧
        s' = { s with next := some new, batches := s.batches.set b.id b, replyBatch := some b.id } ∧
        out = .startSigning (workerSetId X cur) digest s.config.chainName) := by
  unfold updateWorkerSet at h
  cases hc : s.current with
  | none =>
    rw [hc] at h
    simp only at h
    cases hm : makeWorkerSet s.config env with
    | error e => rw [hm] at h; simp at h
    | ok new =>
      rw [hm] at h
      simp only [Except.ok.injEq, Prod.mk.injEq] at h
      exact Or.inl ⟨rfl, new, rfl, h.1.symm, h.2.symm⟩
  | some cur =>
    rw [hc] at h
    simp only at h
    cases hn : nextWorkerSet s env with
    | error e => rw [hn] at h; simp at h
    | ok r =>
    cases r with
    | none => rw [hn] at h; simp at h
    | some new =>
    rw [hn] at h
    simp only at h
    cases hs : saveNext s new with
    | error e => rw [hs] at h; simp at h
    | ok s1 =>
    rw [hs] at h
    simp only at h
    obtain ⟨h1, rfl⟩ := saveNext_ok.mp hs
    cases hb : buildBatch X s.config (some new) [] with
    | error e => rw [hb] at h; simp at h
    | ok b =>
    rw [hb] at h
    simp only at h
    cases hd : b.digest X with
    | error e => rw [hd] at h; simp at h
    | ok digest =>
    rw [hd] at h
    simp only [Except.ok.injEq, Prod.mk.injEq] at h
    exact Or.inr ⟨cur, new, b, digest, rfl, rfl, h1, hb, hd, by rw [← h.1, hc], h.2.symm⟩

theorem confirmWorkerSet_ok {s s' : State} {env : Env} {out : Out}
    (h : confirmWorkerSet X s env = .ok (s', out)) :
    ∃ ws ops, s.next = some ws ∧ makeOperators X s.config.encoder ws = .ok ops ∧
      env.verified ops = .ok true ∧ s' = { s with current := some ws, next := none } ∧
      out = .registerWorkerSet ws := by
  unfold confirmWorkerSet at h
  cases hn : s.next with
  | none => rw [hn] at h; simp at h
  | some ws =>
  rw [hn] at h
  simp only at h
  cases ho : makeOperators X s.config.encoder ws with
  | error e => rw [ho] at h; simp at h
  | ok ops =>
  rw [ho] at h
  simp only at h
  cases hv : env.verified ops with
  | error e => rw [hv] at h; simp at h
  | ok v =>
  rw [hv] at h
  cases v with
  | false => simp at h
  | true =>
    simp only [Except.ok.injEq, Prod.mk.injEq] at h
    exact ⟨ws, ops, rfl, ho, hv, h.1.symm, h.2.symm⟩

theorem exec_ok {s s' : State} {c : Call} {r : Resp} (h : exec X s c = .ok (s', r)) :
    ∃ s1 out, handle X s c.env c.msg = .ok (s1, out) ∧ r.out = out ∧
      ((∃ ws, out = .registerWorkerSet ws ∧ s' = s1 ∧ r.event = none) ∨
       (∃ wid m ch sid b, out = .startSigning wid m ch ∧ c.answer = some (some sid) ∧
          s1.replyBatch = some b ∧ s' = { s1 with sessionBatch := s1.sessionBatch.set sid b } ∧
          r.event = some (sid, b))) := by
  unfold exec at h
  cases hh : handle X s c.env c.msg with
  | error e => rw [hh] at h; simp at h
  | ok x =>
  obtain ⟨s1, out⟩ := x
  rw [hh] at h
  simp only at h
  cases ha : c.answer with
  | none => rw [ha] at h; simp at h
  | some data =>
  rw [ha] at h
  simp only at h
  refine ⟨s1, out, rfl, ?_⟩
  cases out with
  | registerWorkerSet ws =>
    simp only [Except.ok.injEq, Prod.mk.injEq] at h
    obtain ⟨rfl, rfl⟩ := h
    exact ⟨rfl, Or.inl ⟨ws, rfl, rfl, rfl⟩⟩
  | startSigning wid m ch =>
    simp only at h
    cases data with
    | none => simp [reply] at h
    | some sid =>
      simp only [reply] at h
      cases hr : s1.replyBatch with
      | none => rw [hr] at h; simp at h
      | some b =>
        rw [hr] at h
        simp only [Except.ok.injEq, Prod.mk.injEq] at h
        obtain ⟨rfl, rfl⟩ := h
        exact ⟨rfl, Or.inr ⟨wid, m, ch, sid, b, rfl, rfl, rfl, rfl, rfl⟩⟩

/-- the three kinds of successful calls that change worker sets or batches -/
inductive Effect (X : Ext) (s : State) (c : Call) (s' : State) (r : Resp) : Prop
  /-- the first worker set -/
  | first (new : WorkerSet) (hm : c.msg = .updateWorkerSet) (hc : s.current = none)
      (hn : makeWorkerSet s.config c.env = .ok new) (hs : s' = { s with current := some new })
      (hr : r = ⟨.registerWorkerSet new, none⟩)
  /-- confirmation -/
  | confirmed (ws : WorkerSet) (ops : Std.Operators) (hm : c.msg = .confirmWorkerSet)
      (hp : s.next = some ws) (ho : makeOperators X s.config.encoder ws = .ok ops)
      (hv : c.env.verified ops = .ok true) (hs : s' = { s with current := some ws, next := none })
      (hr : r = ⟨.registerWorkerSet ws, none⟩)
  /-- a signing session for a stored batch -/
  | reused (ids : List CCId) (b : Batch) (cur : WorkerSet) (digest : Bytes) (sid : Nat)
      (hm : c.msg = .constructProof ids) (hb : s.batches (batchId X ids none) = some b)
      (hg : ∃ msgs, getMessages s c.env ids = .ok msgs)
      (hc : s.current = some cur) (hd : b.digest X = .ok digest) (ha : c.answer = some (some sid))
      (hs : s' = { s with replyBatch := some b.id, sessionBatch := s.sessionBatch.set sid b.id })
      (hr : r = ⟨.startSigning (workerSetId X cur) digest s.config.chainName, some (sid, b.id)⟩)
  /-- a signing session for a new batch, with or without a rotation -/
  | built (ids : List CCId) (msgs : List Message) (ws : Option WorkerSet) (b : Batch) (cur : WorkerSet)
      (digest : Bytes) (sid : Nat)
      (hm : (c.msg = .constructProof ids ∧ getMessages s c.env ids = .ok msgs ∧
          s.batches (batchId X ids none) = none) ∨
        (c.msg = .updateWorkerSet ∧ ids = [] ∧ msgs = [] ∧ ∃ w, ws = some w))
      (hw : nextWorkerSet s c.env = .ok ws) (hb : buildBatch X s.config ws msgs = .ok b)
      (hp : ∀ w n, ws = some w → s.next = some n → n.signers = w.signers ∧ n.threshold = w.threshold)
      (hc : s.current = some cur) (hd : b.digest X = .ok digest) (ha : c.answer = some (some sid))
      (hs : s' = { s with
        next := pendingAfter s ws, batches := s.batches.set b.id b,
        replyBatch := some b.id, sessionBatch := s.sessionBatch.set sid b.id })
      (hr : r = ⟨.startSigning (workerSetId X cur) digest s.config.chainName, some (sid, b.id)⟩)

theorem exec_effect {s s' : State} {c : Call} {r : Resp} (h : exec X s c = .ok (s', r)) :
    Effect X s c s' r := by
  obtain ⟨s1, out, hh, ho, hx⟩ := exec_ok h
  obtain ⟨rout, rev⟩ := r
  simp only at ho
  subst ho
  obtain ⟨msg, env, answer⟩ := c
  simp only at hx hh
  cases msg with
  | constructProof ids =>
    obtain ⟨msgs, s2, b, cur, digest, hg, hsrc, hc, hd, rfl, rfl⟩ := constructProof_ok hh
    rcases hx with ⟨ws, hx, _⟩ | ⟨wid, m, ch, sid, b', _, ha, hrb, rfl, he⟩
    · simp at hx
    · simp only [Option.some.injEq] at hrb
      subst hrb
      subst he
      rcases hsrc with ⟨hb, rfl⟩ | ⟨hb, hnb⟩
      · exact .reused ids b cur digest sid rfl hb ⟨msgs, hg⟩ hc hd ha rfl rfl
      · obtain ⟨ws, h1, h2, h3, rfl⟩ := newBatch_ok.mp hnb
        exact .built ids msgs ws b cur digest sid (Or.inl ⟨rfl, hg, hb⟩) h1 h2 h3 hc hd ha rfl rfl
  | updateWorkerSet =>
    rcases updateWorkerSet_ok hh with ⟨hc, new, hn, rfl, rfl⟩ |
      ⟨cur, new, b, digest, hc, hn, hp, hb, hd, rfl, rfl⟩
    · rcases hx with ⟨ws, _, rfl, he⟩ | ⟨wid, m, ch, sid, b', hx, _⟩
      · subst he
        exact .first new rfl hc hn rfl rfl
      · simp at hx
    · rcases hx with ⟨ws, hx, _⟩ | ⟨wid, m, ch, sid, b', _, ha, hrb, rfl, he⟩
      · simp at hx
      · simp only [Option.some.injEq] at hrb
        subst hrb
        subst he
        refine .built [] [] (some new) b cur digest sid (Or.inr ⟨rfl, rfl, rfl, new, rfl⟩) hn hb ?_ hc hd ha
          rfl rfl
        intro w n hw hn'
        simp only [Option.some.injEq] at hw
        subst hw
        exact hp n hn'
  | confirmWorkerSet =>
    obtain ⟨ws, ops, hn, hops, hv, rfl, rfl⟩ := confirmWorkerSet_ok hh
    rcases hx with ⟨ws', _, rfl, he⟩ | ⟨wid, m, ch, sid, b', hx, _⟩
    · subst he
      exact .confirmed ws ops rfl hn hops hv rfl rfl
    · simp at hx

theorem config_const {s s' : State} {c : Call} {r : Resp} (h : exec X s c = .ok (s', r)) :
    s'.config = s.config := by
  cases exec_effect h with
  | first new hm hc hn hs hr => rw [hs]
  | confirmed ws ops hm hp ho hv hs hr => rw [hs]
  | reused ids b cur digest sid hm hb hg hc hd ha hs hr => rw [hs]
  | built ids msgs ws b cur digest sid hm hw hb hp hc hd ha hs hr => rw [hs]

/-- the state after a history -/
def stateAfter (X : Ext) (cfg : Config) (cs : List Call) : State := runCalls (exec X) (init cfg) cs

theorem stateAfter_snoc (X : Ext) (cfg : Config) (cs : List Call) (c : Call) :
    stateAfter X cfg (cs ++ [c]) =
      match exec X (stateAfter X cfg cs) c with
      | .ok (s', _) => s'
      | .error _ => stateAfter X cfg cs := by
  unfold stateAfter
  rw [runCalls_append, runCalls_cons]
  cases exec X (runCalls (exec X) (init cfg) cs) c with
  | error e => rfl
  | ok x => rfl

end Amp.Prover
