import Verif.Multisig.Lemmas

/-!
# C45 - C51: the multisig contract

For every signature scheme `C`, worker set hash `idOf`, configuration and list of calls by arbitrary
senders at arbitrary heights.
-/

namespace Amp.Multisig

variable (C : Crypto) (idOf : WorkerSet → Str) (cfg : Config)

/-! ### concrete data for the non-vacuity checks -/

/-- a toy scheme: a signature is valid if it begins with the first byte of the key -/
def exCrypto : Crypto := ⟨fun _ s k => some (decide (s.head? = k.head?)), fun _ _ _ => none⟩

/-- a toy hash -/
def exId (ws : WorkerSet) : Str := showNat ws.createdAt

/-- governance 1, rewards contract 2, grace period 5 -/
def exCfg : Config := ⟨1, 2, 5⟩

/-- three workers with weights 10, 10, 5 -/
def exSet : RawWorkerSet :=
  ⟨[(22, ⟨22, 10, .ecdsa, List.replicate 33 2⟩), (21, ⟨21, 10, .ecdsa, List.replicate 33 1⟩),
    (23, ⟨23, 5, .ecdsa, List.replicate 65 3⟩)], 20, 1⟩

def exCalls : List Call := [
  ⟨9, 1, .registerWorkerSet exSet⟩,
  ⟨1, 1, .authorizeCaller 30⟩,
  ⟨30, 2, .startSigningSession "1".toList (List.replicate 32 7) "eth".toList true⟩,
  ⟨31, 2, .startSigningSession "1".toList (List.replicate 32 7) "eth".toList true⟩,
  ⟨22, 3, .submitSignature 1 (List.replicate 64 2)⟩,
  ⟨22, 3, .submitSignature 1 (List.replicate 64 2)⟩,
  ⟨21, 4, .submitSignature 1 (List.replicate 64 1)⟩,
  ⟨21, 4, .registerPublicKey .ecdsa (List.replicate 33 1)⟩,
  ⟨9, 5, .registerWorkerSet ⟨[], 0, 2⟩⟩,
  ⟨1, 6, .unauthorizeCaller 30⟩]

/-- the same with a late signature, exactly at the end of the grace period -/
def exCalls2 : List Call := exCalls ++ [⟨23, 9, .submitSignature 1 (List.replicate 64 3)⟩]

theorem ex_noCollision : NoCollision exId (trace exCrypto exId exCfg exCalls) := by
  have key : ∀ w, Registered (trace exCrypto exId exCfg exCalls) w →
      exSet.decode = .ok w ∨ RawWorkerSet.decode ⟨[], 0, 2⟩ = .ok w := by
    rintro w ⟨st, hst, r, h1, h2⟩
    have h3 : st.call ∈ exCalls := by
      obtain ⟨⟨cs₁, cs₂, h, _⟩, _⟩ := steps_mem _ hst
      rw [h]; simp
    simp only [exCalls, List.mem_cons, List.not_mem_nil, or_false] at h3
    rcases h3 with h | h | h | h | h | h | h | h | h | h <;> rw [h] at h1 <;>
      simp only [Msg.registerWorkerSet.injEq, reduceCtorEq] at h1 <;> subst h1
    · exact Or.inl h2
    · exact Or.inr h2
  have hA : exSet.decode = .ok ⟨[(21, ⟨21, 10, .ecdsa (List.replicate 33 1)⟩),
      (22, ⟨22, 10, .ecdsa (List.replicate 33 2)⟩), (23, ⟨23, 5, .ecdsa (List.replicate 65 3)⟩)],
      20, 1⟩ := by rfl
  have hB : RawWorkerSet.decode ⟨[], 0, 2⟩ = .ok ⟨[], 0, 2⟩ := by rfl
  rw [hA, hB] at key
  simp only [Except.ok.injEq] at key
  intro w w' h1 h2 h3
  rcases key w h1 with rfl | rfl <;> rcases key w' h2 with rfl | rfl
  · rfl
  · exact absurd h3 (by decide)
  · exact absurd h3 (by decide)
  · rfl

/-! ### C45 -/

/-- C45: if a session is reported completed, it was started for some message and registered worker set,
whose threshold is reached by the total weight of the (distinct) members reported with a signature; and
each reported signature was submitted by that member's account and is valid under the member's key for
exactly the message of the session. -/
theorem C45_completed (cs : List Call) (hnc : NoCollision idOf (trace C idOf cfg cs)) (id h : Nat)
    (m : Multisig) (hq : getMultisig (stateAfter C idOf cfg cs) id = some m)
    (hc : m.state = .completed h) :
    m.quorum ≤ signedWeight m ∧
    ∃ wid msg ws, Started (trace C idOf cfg cs) id wid msg ∧
      getWorkerSet (stateAfter C idOf cfg cs) wid = some ws ∧ ws.signers.keys.Nodup ∧
      m.quorum = ws.threshold ∧ m.signers.map Prod.fst = ws.signers.map Prod.snd ∧
      (∀ (i : Nat) (sg : Signer) (sig : Signature), m.signers[i]? = some (sg, some sig) → ∃ a, ws.signers[i]? = some (a, sg) ∧
        Valid C msg sg.pubKey sig ∧ Submitted (trace C idOf cfg cs) id a sig.bytes) := by
  obtain ⟨hb, hi⟩ := invariants C idOf cfg cs
  have hi := hi hnc
  revert hb hi hq hnc
  generalize stateAfter C idOf cfg cs = s
  generalize trace C idOf cfg cs = log
  intro hnc hq hb hi
  unfold getMultisig at hq
  split at hq
  · simp at hq
  rename_i se hse
  split at hq
  · simp at hq
  rename_i ws hws
  simp only [Option.some.injEq] at hq
  subst hq
  simp only at hc ⊢
  obtain ⟨g1, g2, g3, g4, _⟩ := hb.sess id se hse
  obtain ⟨_, _, hso⟩ := hb.sets _ _ hws
  rw [g1]
  have hle := hi.completed id se ws h hse hws hc
  refine ⟨?_, se.workerSetId, se.msg, ws, g4, hws, OMap.keys_nodup hso, rfl, ?_, ?_⟩
  · have : signedWeight ⟨se.state, ws.threshold,
        ws.signers.map (fun e => (e.2, (s.signatures id).get? e.1))⟩ = recordedWeight s id ws := by
      unfold signedWeight recordedWeight
      simp only [List.map_map]
      rfl
    rw [this]
    exact hle
  · simp [Function.comp_def]
  · intro i sg sig hget
    simp only [List.getElem?_map, Option.map_eq_some_iff, Prod.mk.injEq, Prod.exists] at hget
    obtain ⟨a, sg', h1, rfl, h2⟩ := hget
    have hmem : (a, sg') ∈ ws.signers := List.mem_of_getElem? h1
    obtain ⟨sg2, h3, h4⟩ := hi.sig id a sig se ws h2 hse hws
    rw [OMap.get?_of_mem hso hmem] at h3
    simp only [Option.some.injEq] at h3
    subst h3
    exact ⟨a, h1, h4, (hb.sig id a sig h2).1⟩

example : ∃ m, getMultisig (stateAfter exCrypto exId exCfg exCalls) 1 = some m ∧
    m.state = .completed 4 ∧ m.quorum = 20 ∧ signedWeight m = 20 :=
  ⟨⟨.completed 4, 20,
    [(⟨21, 10, .ecdsa (List.replicate 33 1)⟩, some (.ecdsa (List.replicate 64 1))),
     (⟨22, 10, .ecdsa (List.replicate 33 2)⟩, some (.ecdsa (List.replicate 64 2))),
     (⟨23, 5, .ecdsa (List.replicate 65 3)⟩, none)]⟩, by rfl, rfl, rfl, rfl⟩

/-! ### C46 -/

/-- C46: a session changes state only by an accepted signature that brings the weight of the recorded
signatures from below the threshold (or from no signature at all) to the threshold; it then becomes
completed at the height of that call. -/
theorem C46_moment (cs : List Call) (hnc : NoCollision idOf (trace C idOf cfg cs)) (c : Call)
    {s' : State} {r : Resp} (hx : exec C idOf (stateAfter C idOf cfg cs) c = .ok (s', r))
    (id : Nat) (se se' : Session) (h1 : (stateAfter C idOf cfg cs).sessions id = some se)
    (h2 : s'.sessions id = some se') (hne : se'.state ≠ se.state) :
    se.state = .pending ∧ se'.state = .completed c.height ∧ (∃ b, c.msg = .submitSignature id b) ∧
    ∃ ws, (stateAfter C idOf cfg cs).workerSets se.workerSetId = some ws ∧
      ws.threshold ≤ recordedWeight s' id ws ∧
      (recordedWeight (stateAfter C idOf cfg cs) id ws < ws.threshold ∨
        (stateAfter C idOf cfg cs).signatures id = []) := by
  obtain ⟨hb, hi⟩ := invariants C idOf cfg cs
  have hi := hi hnc
  revert hb hi hx h1
  generalize stateAfter C idOf cfg cs = s
  intro hx h1 hb hi
  rcases exec_ok hx with ⟨wid, msg, chain, ok, hm, h⟩ | ⟨i, b, hm, h⟩ | ⟨raw, ws, hm, hd, e1, e2⟩ |
    ⟨kt, b, k, hm, hk, e1, e2⟩ | ⟨a, hm, hg, e1, e2⟩ | ⟨a, hm, hg, e1, e2⟩
  · obtain ⟨_, _, hl, hc, ws, hw, e1, e2⟩ := start_ok.mp h
    rw [e1] at h2
    simp only [KV.set_apply] at h2
    split at h2
    · rename_i heq
      obtain ⟨_, _, g3, _⟩ := hb.sess id se h1
      omega
    · rw [h1] at h2
      simp only [Option.some.injEq] at h2
      rw [h2] at hne
      exact absurd rfl hne
  · obtain ⟨se0, ws, sg, sig, w, k1, k2, k3, k4, k5, k6, k7, k8, e1, e2⟩ := submit_ok.mp h
    obtain ⟨q1, _⟩ := hb.sess i se0 k1
    obtain ⟨_, _, hso⟩ := hb.sets _ _ k2
    obtain ⟨_, hw, _⟩ := signersWeight_ok.mp k8
    have h2' := h2
    rw [e1] at h2'
    simp only [KV.set_apply, q1] at h2'
    split at h2'
    · rename_i heq
      subst heq
      rw [k1] at h1
      simp only [Option.some.injEq] at h1 h2'
      subst h1
      subst h2'
      simp only at hne ⊢
      have hcond : se0.state = .pending ∧ ws.threshold ≤ w := by
        by_contra hn
        exact hne (by unfold nextState; rw [if_neg hn])
      have hrw : recordedWeight s' id ws = w := by
        rw [hw, OMap.sumBy_set_none _ _ k7, hi.weight id se0 ws k1 k2]
        unfold recordedWeight
        rw [e1]
        simp only [addSig, if_true]
        refine (sum_update hso k3 k7).trans ?_
        have hwt : weightOf ws c.sender = sg.weight := by simp only [weightOf, k3]
        rw [hwt]
        rfl
      refine ⟨hcond.1, by unfold nextState; rw [if_pos hcond], ⟨b, hm⟩, ws, k2, ?_, ?_⟩
      · rw [hrw]; exact hcond.2
      · exact hi.pending id se0 ws k1 k2 hcond.1
    · rw [h1] at h2'
      simp only [Option.some.injEq] at h2'
      rw [h2'] at hne
      exact absurd rfl hne
  all_goals
    rw [e1] at h2
    simp only at h2
    rw [h1] at h2
    simp only [Option.some.injEq] at h2
    rw [h2] at hne
    exact absurd rfl hne

/-- C46: no session stays pending once recorded signatures reach the threshold. -/
theorem C46_no_delay (cs : List Call) (hnc : NoCollision idOf (trace C idOf cfg cs)) (id : Nat)
    (se : Session) (ws : WorkerSet) (h1 : (stateAfter C idOf cfg cs).sessions id = some se)
    (h2 : (stateAfter C idOf cfg cs).workerSets se.workerSetId = some ws)
    (h3 : (stateAfter C idOf cfg cs).signatures id ≠ [])
    (h4 : ws.threshold ≤ recordedWeight (stateAfter C idOf cfg cs) id ws) :
    ∃ h, se.state = .completed h := by
  have hi := (invariants C idOf cfg cs).2 hnc
  cases hs : se.state with
  | completed h => exact ⟨h, rfl⟩
  | pending =>
    rcases hi.pending id se ws h1 h2 hs with h | h
    · omega
    · exact absurd h h3

theorem session_step {log : List (Step State Call Resp)} {s s' : State} {c : Call} {r : Resp}
    (hb : Base idOf log s) (hx : exec C idOf s c = .ok (s', r)) {id : Nat} {se : Session}
    (hse : s.sessions id = some se) :
    ∃ se', s'.sessions id = some se' ∧ se'.id = se.id ∧ se'.workerSetId = se.workerSetId ∧
      se'.msg = se.msg ∧ (∀ h, se.state = .completed h → se'.state = .completed h) := by
  rcases exec_ok hx with ⟨wid, msg, chain, ok, hm, h⟩ | ⟨i, b, hm, h⟩ | ⟨raw, ws, hm, hd, e1, e2⟩ |
    ⟨kt, b, k, hm, hk, e1, e2⟩ | ⟨a, hm, hg, e1, e2⟩ | ⟨a, hm, hg, e1, e2⟩
  · obtain ⟨_, _, hl, hc, ws, hw, e1, e2⟩ := start_ok.mp h
    refine ⟨se, ?_, rfl, rfl, rfl, fun _ h => h⟩
    rw [e1]
    simp only [KV.set_apply]
    rw [if_neg]
    · exact hse
    · obtain ⟨_, _, g3, _⟩ := hb.sess id se hse
      omega
  · obtain ⟨se0, ws, sg, sig, w, k1, k2, k3, k4, k5, k6, k7, k8, e1, e2⟩ := submit_ok.mp h
    obtain ⟨q1, _⟩ := hb.sess i se0 k1
    rw [e1]
    simp only [KV.set_apply, q1]
    by_cases hid : id = i
    · subst hid
      rw [k1] at hse
      simp only [Option.some.injEq] at hse
      subst hse
      rw [if_pos rfl]
      refine ⟨_, rfl, q1.symm, rfl, rfl, ?_⟩
      intro h' hst
      simp only [nextState, hst, reduceCtorEq, false_and, if_false]
    · rw [if_neg hid]
      exact ⟨se, hse, rfl, rfl, rfl, fun _ h => h⟩
  all_goals
    rw [e1]
    exact ⟨se, hse, rfl, rfl, rfl, fun _ h => h⟩

theorem signature_step {log : List (Step State Call Resp)} {s s' : State} {c : Call} {r : Resp}
    (_hb : Base idOf log s) (hx : exec C idOf s c = .ok (s', r)) {id : Nat} {a : Addr}
    {sig : Signature} (hs : (s.signatures id).get? a = some sig) :
    (s'.signatures id).get? a = some sig := by
  rcases exec_ok hx with ⟨wid, msg, chain, ok, hm, h⟩ | ⟨i, b, hm, h⟩ | ⟨raw, ws, hm, hd, e1, e2⟩ |
    ⟨kt, b, k, hm, hk, e1, e2⟩ | ⟨a', hm, hg, e1, e2⟩ | ⟨a', hm, hg, e1, e2⟩
  · obtain ⟨_, _, hl, hc, ws, hw, e1, e2⟩ := start_ok.mp h
    rw [e1]; exact hs
  · obtain ⟨se0, ws, sg, sig', w, k1, k2, k3, k4, k5, k6, k7, k8, e1, e2⟩ := submit_ok.mp h
    rw [e1]
    simp only [addSig]
    split
    · rename_i hid
      subst hid
      rw [OMap.get?_set]
      split
      · rename_i ha
        subst ha
        rw [k7] at hs
        simp at hs
      · exact hs
    · exact hs
  all_goals
    rw [e1]; exact hs

theorem stateAfter_append (cs₁ cs₂ : List Call) :
    stateAfter C idOf cfg (cs₁ ++ cs₂) = runCalls (exec C idOf) (stateAfter C idOf cfg cs₁) cs₂ := by
  unfold stateAfter; rw [runCalls_append]

theorem trace_append (cs₁ cs₂ : List Call) :
    trace C idOf cfg (cs₁ ++ cs₂) =
      trace C idOf cfg cs₁ ++ steps (exec C idOf) (stateAfter C idOf cfg cs₁) cs₂ := by
  unfold trace stateAfter; rw [steps_append]

/-- whatever a call preserves (given `Base`) is preserved by all later calls -/
theorem persists {Q : State → Prop} (cs₁ cs₂ : List Call) (h0 : Q (stateAfter C idOf cfg cs₁))
    (hstep : ∀ log s c s' r, Base idOf log s → Q s → exec C idOf s c = .ok (s', r) → Q s') :
    Q (stateAfter C idOf cfg (cs₁ ++ cs₂)) := by
  rw [stateAfter_append]
  have := steps_inv (exec C idOf) (P := fun log s => Base idOf (trace C idOf cfg cs₁ ++ log) s ∧ Q s)
    (stateAfter C idOf cfg cs₁) ⟨by simpa using (invariants C idOf cfg cs₁).1, h0⟩
    (by
      rintro log s c s' r ⟨hb, hq⟩ hx
      refine ⟨?_, hstep _ s c s' r hb hq hx⟩
      have := base_step hb hx
      rwa [List.append_assoc] at this) cs₂
  exact this.2

/-- C46: completion and its height are permanent. -/
theorem C46_permanent (cs₁ cs₂ : List Call) (id h : Nat) (m : Multisig)
    (hq : getMultisig (stateAfter C idOf cfg cs₁) id = some m) (hc : m.state = .completed h) :
    ∃ m', getMultisig (stateAfter C idOf cfg (cs₁ ++ cs₂)) id = some m' ∧
      m'.state = .completed h := by
  have hse : ∃ se, (stateAfter C idOf cfg cs₁).sessions id = some se ∧ se.state = .completed h := by
    unfold getMultisig at hq
    split at hq
    · simp at hq
    rename_i se hse
    split at hq
    · simp at hq
    simp only [Option.some.injEq] at hq
    subst hq
    exact ⟨se, hse, hc⟩
  have := persists C idOf cfg (Q := fun s => ∃ se, s.sessions id = some se ∧ se.state = .completed h)
    cs₁ cs₂ hse (by
      rintro log s c s' r hb ⟨se, h1, h2⟩ hx
      obtain ⟨se', g1, _, _, _, g5⟩ := session_step C idOf hb hx h1
      exact ⟨se', g1, g5 h h2⟩)
  obtain ⟨se, h1, h2⟩ := this
  obtain ⟨ws, h3⟩ := (invariants C idOf cfg (cs₁ ++ cs₂)).1.set id se h1
  refine ⟨⟨se.state, ws.threshold, ws.signers.map (fun e =>
    (e.2, ((stateAfter C idOf cfg (cs₁ ++ cs₂)).signatures se.id).get? e.1))⟩, ?_, h2⟩
  unfold getMultisig
  simp only [h1, h3]

/-- C46: a recorded signature is never removed or replaced. -/
theorem C46_signatures_permanent (cs₁ cs₂ : List Call) (id : Nat) (a : Addr) (sig : Signature)
    (h : ((stateAfter C idOf cfg cs₁).signatures id).get? a = some sig) :
    ((stateAfter C idOf cfg (cs₁ ++ cs₂)).signatures id).get? a = some sig :=
  persists C idOf cfg (Q := fun s => (s.signatures id).get? a = some sig) cs₁ cs₂ h
    (fun _ _ _ _ _ hb hq hx => signature_step C idOf hb hx hq)

theorem submitted_recorded (cs : List Call) (id : Nat) (a : Addr) (b : Bin)
    (h : Submitted (trace C idOf cfg cs) id a b) :
    ∃ sig, ((stateAfter C idOf cfg cs).signatures id).get? a = some sig ∧ sig.bytes = b := by
  have key := steps_inv (exec C idOf) (P := fun log s => Base idOf log s ∧ ∀ id a b,
    Submitted log id a b → ∃ sig, (s.signatures id).get? a = some sig ∧ sig.bytes = b) (init cfg)
    ⟨base_init cfg, by rintro id a b ⟨st, h, _⟩; simp at h⟩ ?_ cs
  · exact key.2 id a b h
  rintro log s c s' r ⟨hb, hp⟩ hx
  refine ⟨base_step hb hx, ?_⟩
  rintro id a b ⟨st, hst, g1, g2⟩
  rcases List.mem_append.mp hst with hst | hst
  · obtain ⟨sig, h1, h2⟩ := hp id a b ⟨st, hst, g1, g2⟩
    exact ⟨sig, signature_step C idOf hb hx h1, h2⟩
  · simp only [List.mem_singleton] at hst
    subst hst
    simp only at g1 g2
    simp only [exec, g2] at hx
    obtain ⟨se0, ws, sg, sig', w, k1, k2, k3, k4, k5, k6, k7, k8, e1, e2⟩ := submit_ok.mp hx
    refine ⟨sig', ?_, k5⟩
    rw [e1, ← g1]
    simp only [addSig, if_true]
    rw [OMap.get?_set, if_pos rfl]

/-- C45: what is reported for a session, completed or not, is the state of its history: a session is
reported exactly if it was started; the members listed are those of the worker set it was started with;
and a member is listed with a signature exactly if the member submitted that signature. -/
theorem C45_report (cs : List Call) (id : Nat) :
    ((∃ m, getMultisig (stateAfter C idOf cfg cs) id = some m) ↔
      ∃ wid msg, Started (trace C idOf cfg cs) id wid msg) ∧
    ∀ m wid msg, getMultisig (stateAfter C idOf cfg cs) id = some m →
      Started (trace C idOf cfg cs) id wid msg →
      ∃ ws, getWorkerSet (stateAfter C idOf cfg cs) wid = some ws ∧ m.quorum = ws.threshold ∧
        m.signers.length = ws.signers.length ∧
        ∀ (i : Nat) (a : Addr) (sg : Signer), ws.signers[i]? = some (a, sg) →
          ∃ o, m.signers[i]? = some (sg, o) ∧
            ∀ b, Submitted (trace C idOf cfg cs) id a b ↔ ∃ sig, o = some sig ∧ sig.bytes = b := by
  have hb := (invariants C idOf cfg cs).1
  have hsub := submitted_recorded C idOf cfg cs id
  have hst : ∀ wid msg, Started (trace C idOf cfg cs) id wid msg → ∃ se,
      (stateAfter C idOf cfg cs).sessions id = some se ∧ se.workerSetId = wid ∧ se.msg = msg := by
    have key := steps_inv (exec C idOf) (P := fun log s => Base idOf log s ∧ ∀ id wid msg,
      Started log id wid msg → ∃ se, s.sessions id = some se ∧ se.workerSetId = wid ∧ se.msg = msg)
      (init cfg) ⟨base_init cfg, by rintro id a b ⟨st, h, _⟩; simp at h⟩ ?_ cs
    · exact key.2 id
    rintro log s c s' r ⟨hb, hp⟩ hx
    refine ⟨base_step hb hx, ?_⟩
    rintro id wid msg ⟨st, hst, chain, ok, g1, g2⟩
    rcases List.mem_append.mp hst with hst | hst
    · obtain ⟨se, h1, h2, h3⟩ := hp id wid msg ⟨st, hst, chain, ok, g1, g2⟩
      obtain ⟨se', q1, _, q3, q4, _⟩ := session_step C idOf hb hx h1
      exact ⟨se', q1, by rw [q3, h2], by rw [q4, h3]⟩
    · simp only [List.mem_singleton] at hst
      subst hst
      simp only at g1 g2
      simp only [exec, g1] at hx
      obtain ⟨_, _, hl, hc, ws, hw, e1, e2⟩ := start_ok.mp hx
      rw [e2] at g2
      simp only [Option.some.injEq] at g2
      rw [e1, ← g2]
      simp only [KV.set_apply, if_true]
      exact ⟨_, rfl, rfl, rfl⟩
  revert hb hsub hst
  generalize stateAfter C idOf cfg cs = s
  generalize trace C idOf cfg cs = log
  intro hb hsub hst
  refine ⟨⟨?_, ?_⟩, ?_⟩
  · rintro ⟨m, hm⟩
    unfold getMultisig at hm
    split at hm
    · simp at hm
    rename_i se hse
    exact ⟨_, _, (hb.sess id se hse).2.2.2.1⟩
  · rintro ⟨wid, msg, h⟩
    obtain ⟨se, h1, _⟩ := hst wid msg h
    obtain ⟨ws, h2⟩ := hb.set id se h1
    unfold getMultisig
    simp only [h1, h2]
    exact ⟨_, rfl⟩
  · intro m wid msg hm hs
    obtain ⟨se, h1, h2, h3⟩ := hst wid msg hs
    obtain ⟨ws, h4⟩ := hb.set id se h1
    unfold getMultisig at hm
    simp only [h1, h4, Option.some.injEq, (hb.sess id se h1).1] at hm
    subst hm
    refine ⟨ws, by rw [← h2]; exact h4, rfl, by simp, ?_⟩
    intro i a sg hi
    refine ⟨(s.signatures id).get? a, by simp [hi], ?_⟩
    intro b
    refine ⟨hsub a b, ?_⟩
    rintro ⟨sig, h5, rfl⟩
    exact (hb.sig id a sig h5).1

example : (∃ se, (stateAfter exCrypto exId exCfg (exCalls.take 6)).sessions 1 = some se ∧
      se.state = .pending) ∧
    (∃ se, (stateAfter exCrypto exId exCfg (exCalls.take 7)).sessions 1 = some se ∧
      se.state = .completed 4) ∧
    (∃ se, (stateAfter exCrypto exId exCfg exCalls2).sessions 1 = some se ∧
      se.state = .completed 4) ∧
    ((stateAfter exCrypto exId exCfg (exCalls.take 6)).signatures 1).get? 22 =
      some (.ecdsa (List.replicate 64 2)) :=
  ⟨⟨_, rfl, rfl⟩, ⟨_, rfl, rfl⟩, ⟨_, rfl, rfl⟩, rfl⟩

/-! ### C47 -/

/-- C47: a signature is accepted exactly if the session exists, the sender is a member of its worker set
and has no signature recorded for it, the bytes are a valid signature under the member's key for the
session's message, and the session is pending or was completed at most the grace period ago.  (The weights
must not overflow `Uint256`, nor the completion height plus the grace period 64 bits.)  It is then recorded
for the sender. -/
theorem C47_acceptance (cs : List Call) (hnc : NoCollision idOf (trace C idOf cfg cs)) (a : Addr)
    (h id : Nat) (b : Bin) :
    ((∃ s' r, exec C idOf (stateAfter C idOf cfg cs) ⟨a, h, .submitSignature id b⟩ = .ok (s', r)) ↔
      ∃ se ws sg sig, (stateAfter C idOf cfg cs).sessions id = some se ∧
        (stateAfter C idOf cfg cs).workerSets se.workerSetId = some ws ∧
        ws.signers.get? a = some sg ∧ ((stateAfter C idOf cfg cs).signatures id).get? a = none ∧
        sig.bytes = b ∧ Valid C se.msg sg.pubKey sig ∧
        Open se.state (stateAfter C idOf cfg cs).config.gracePeriod h ∧
        recordedWeight (stateAfter C idOf cfg cs) id ws + sg.weight ≤ u256Max) ∧
    (∀ s' r, exec C idOf (stateAfter C idOf cfg cs) ⟨a, h, .submitSignature id b⟩ = .ok (s', r) →
      ∃ sig, sig.bytes = b ∧ (s'.signatures id).get? a = some sig ∧
        (∀ i x, (i, x) ≠ (id, a) → (s'.signatures i).get? x =
          ((stateAfter C idOf cfg cs).signatures i).get? x)) := by
  obtain ⟨hb, hi⟩ := invariants C idOf cfg cs
  have hi := hi hnc
  revert hb hi
  generalize stateAfter C idOf cfg cs = s
  intro hb hi
  have hsum : ∀ se ws sg sig, s.sessions id = some se → s.workerSets se.workerSetId = some ws →
      ws.signers.get? a = some sg → (s.signatures id).get? a = none → ∀ w,
      (signersWeight ((s.signatures id).set a sig) ws = .ok w ↔
        w = recordedWeight s id ws + sg.weight ∧ w ≤ u256Max) := by
    intro se ws sg sig h1 h2 h3 h4 w
    rw [signersWeight_ok, OMap.sumBy_set_none _ _ h4, hi.weight id se ws h1 h2]
    have hwt : weightOf ws a = sg.weight := by simp only [weightOf, h3]
    rw [hwt]
    constructor
    · rintro ⟨_, g1, g2⟩; exact ⟨g1, g2⟩
    · rintro ⟨g1, g2⟩
      refine ⟨?_, g1, g2⟩
      intro e he
      rcases OMap.mem_set he with he | he
      · rw [he, h3]; simp
      · have := OMap.get?_of_mem (hb.sorted id) (k := e.1) (v := e.2) he
        obtain ⟨sg', g3, _⟩ := hi.sig id e.1 e.2 se ws this h1 h2
        rw [g3]; simp
  refine ⟨⟨?_, ?_⟩, ?_⟩
  · rintro ⟨s', r, hx⟩
    simp only [exec] at hx
    obtain ⟨se, ws, sg, sig, w, k1, k2, k3, k4, k5, k6, k7, k8, _⟩ := submit_ok.mp hx
    obtain ⟨g1, g2⟩ := (hsum se ws sg sig k1 k2 k3 k7 w).mp k8
    exact ⟨se, ws, sg, sig, k1, k2, k3, k7, k5, k4, k6, by rw [← g1]; exact g2⟩
  · rintro ⟨se, ws, sg, sig, k1, k2, k3, k7, k5, k4, k6, k8⟩
    simp only [exec]
    exact ⟨_, _, submit_ok.mpr ⟨se, ws, sg, sig, _, k1, k2, k3, k4, k5, k6, k7,
      (hsum se ws sg sig k1 k2 k3 k7 _).mpr ⟨rfl, k8⟩, rfl, rfl⟩⟩
  · intro s' r hx
    simp only [exec] at hx
    obtain ⟨se, ws, sg, sig, w, k1, k2, k3, k4, k5, k6, k7, k8, e1, _⟩ := submit_ok.mp hx
    refine ⟨sig, k5, ?_, ?_⟩
    · rw [e1]; simp only [addSig, if_true]; rw [OMap.get?_set, if_pos rfl]
    · intro i x hne
      rw [e1]
      simp only [addSig]
      split
      · rename_i hii
        subst hii
        rw [OMap.get?_set, if_neg]
        rintro rfl
        exact hne rfl
      · rfl

example : (∃ s' r, exec exCrypto exId (stateAfter exCrypto exId exCfg exCalls)
      ⟨23, 9, .submitSignature 1 (List.replicate 64 3)⟩ = .ok (s', r)) ∧
    exec exCrypto exId (stateAfter exCrypto exId exCfg exCalls)
      ⟨23, 10, .submitSignature 1 (List.replicate 64 3)⟩ = .error .signingSessionClosed :=
  ⟨⟨_, _, rfl⟩, rfl⟩

/-! ### C48 -/

/-- C48: the ids of the sessions ever started are 1, 2, 3, ... in this order, and exactly these sessions
exist. -/
theorem C48_ids (cs : List Call) :
    startedIds (trace C idOf cfg cs) = List.range' 1 (stateAfter C idOf cfg cs).counter ∧
    ∀ id, (stateAfter C idOf cfg cs).sessions id ≠ none ↔ id ∈ startedIds (trace C idOf cfg cs) := by
  have key := steps_inv (exec C idOf) (P := fun log s => startedIds log = List.range' 1 s.counter)
    (init cfg) rfl (by
      intro log s c s' r hp hx
      unfold startedIds at *
      rw [List.filterMap_append, hp]
      simp only [List.filterMap_cons, List.filterMap_nil]
      rcases exec_ok hx with ⟨wid, msg, chain, ok, hm, h⟩ | ⟨i, b, hm, h⟩ | ⟨raw, ws, hm, hd, e1, e2⟩ |
        ⟨kt, b, k, hm, hk, e1, e2⟩ | ⟨a, hm, hg, e1, e2⟩ | ⟨a, hm, hg, e1, e2⟩
      · obtain ⟨_, _, hl, hc, ws, hw, e1, e2⟩ := start_ok.mp h
        rw [e1, e2]
        simp only [hm]
        rw [List.range'_concat]
        congr 2
        omega
      · obtain ⟨se0, ws, sg, sig', w, k1, k2, k3, k4, k5, k6, k7, k8, e1, e2⟩ := submit_ok.mp h
        rw [e1]
        simp only [hm, List.append_nil]
      all_goals
        rw [e1]
        simp only [hm, List.append_nil]) cs
  refine ⟨key, ?_⟩
  intro id
  have hb := (invariants C idOf cfg cs).1
  have key' : startedIds (trace C idOf cfg cs) =
    List.range' 1 (stateAfter C idOf cfg cs).counter := key
  rw [key', List.mem_range'_1]
  constructor
  · intro hne
    cases hs : (stateAfter C idOf cfg cs).sessions id with
    | none => exact absurd hs hne
    | some se =>
      obtain ⟨_, g2, g3, _⟩ := hb.sess id se hs
      omega
  · rintro ⟨h1, h2⟩
    exact hb.all id h1 (by omega)

/-- C48: a session has the message and worker set it was started with. -/
theorem C48_origin (cs : List Call) (id : Nat) (se : Session)
    (h : (stateAfter C idOf cfg cs).sessions id = some se) :
    Started (trace C idOf cfg cs) id se.workerSetId se.msg ∧ se.msg.length = 32 :=
  ⟨((invariants C idOf cfg cs).1.sess id se h).2.2.2.1,
    ((invariants C idOf cfg cs).1.sess id se h).2.2.2.2⟩

/-- C48: a session keeps its message and worker set for ever. -/
theorem C48_immutable (cs₁ cs₂ : List Call) (id : Nat) (se : Session)
    (h : (stateAfter C idOf cfg cs₁).sessions id = some se) :
    ∃ se', (stateAfter C idOf cfg (cs₁ ++ cs₂)).sessions id = some se' ∧ se'.id = id ∧
      se'.workerSetId = se.workerSetId ∧ se'.msg = se.msg := by
  have hid := ((invariants C idOf cfg cs₁).1.sess id se h).1
  refine persists C idOf cfg (Q := fun s => ∃ se', s.sessions id = some se' ∧ se'.id = id ∧
      se'.workerSetId = se.workerSetId ∧ se'.msg = se.msg) cs₁ cs₂ ⟨se, h, hid, rfl, rfl⟩ ?_
  rintro log s c s' r hb ⟨se', h1, h2, h3, h4⟩ hx
  obtain ⟨se2, g1, g2, g3, g4, _⟩ := session_step C idOf hb hx h1
  exact ⟨se2, g1, by rw [g2, h2], by rw [g3, h3], by rw [g4, h4]⟩

/-- C48: the accounts allowed to start sessions are those whose last governance decision was to authorise
them; only governance decides. -/
theorem C48_callers (cs : List Call) (a : Addr) :
    ((stateAfter C idOf cfg cs).authorized a = some () ↔ authorizedIn (trace C idOf cfg cs) a = true) ∧
    (∀ st ∈ trace C idOf cfg cs, ∀ x,
      st.call.msg = .authorizeCaller x ∨ st.call.msg = .unauthorizeCaller x →
      st.call.sender = cfg.governance) := by
  have key := steps_inv (exec C idOf) (P := fun log s => s.config = cfg ∧
    (s.authorized a = some () ↔ authorizedIn log a = true) ∧
    (∀ st ∈ log, ∀ x,
      st.call.msg = .authorizeCaller x ∨ st.call.msg = .unauthorizeCaller x →
      st.call.sender = cfg.governance)) (init cfg)
    ⟨rfl, by simp [init, authorizedIn], by simp⟩ ?_ cs
  · exact key.2
  rintro log s c s' r ⟨hc, hp, hg⟩ hx
  have hfold : authorizedIn (log ++ [⟨s, c, r, s'⟩]) a = (match c.msg with
      | .authorizeCaller x => if x = a then true else authorizedIn log a
      | .unauthorizeCaller x => if x = a then false else authorizedIn log a
      | _ => authorizedIn log a) := by
    unfold authorizedIn
    rw [List.foldl_append]
    rfl
  rw [hfold]
  have hlog : ∀ (P : Prop), (∀ x, c.msg = .authorizeCaller x ∨ c.msg = .unauthorizeCaller x →
      c.sender = cfg.governance) → P → P ∧ (∀ st ∈ log ++ [⟨s, c, r, s'⟩], ∀ x,
      st.call.msg = .authorizeCaller x ∨ st.call.msg = .unauthorizeCaller x →
      st.call.sender = cfg.governance) := by
    intro P h1 h2
    refine ⟨h2, ?_⟩
    intro st hst x hxx
    rcases List.mem_append.mp hst with hst | hst
    · exact hg st hst x hxx
    · simp only [List.mem_singleton] at hst
      subst hst
      exact h1 x hxx
  rcases exec_ok hx with ⟨wid, msg, chain, ok, hm, h⟩ | ⟨i, b, hm, h⟩ | ⟨raw, ws, hm, hd, e1, e2⟩ |
    ⟨kt, b, k, hm, hk, e1, e2⟩ | ⟨x, hm, hgov, e1, e2⟩ | ⟨x, hm, hgov, e1, e2⟩
  · obtain ⟨_, _, hl, hc', ws, hw, e1, e2⟩ := start_ok.mp h
    refine ⟨by rw [e1]; exact hc, hlog _ (by simp [hm]) ?_⟩
    rw [hm, e1]; exact hp
  · obtain ⟨se0, ws, sg, sig', w, k1, k2, k3, k4, k5, k6, k7, k8, e1, e2⟩ := submit_ok.mp h
    refine ⟨by rw [e1]; exact hc, hlog _ (by simp [hm]) ?_⟩
    rw [hm, e1]; exact hp
  · refine ⟨by rw [e1]; exact hc, hlog _ (by simp [hm]) ?_⟩
    rw [hm, e1]; exact hp
  · refine ⟨by rw [e1]; exact hc, hlog _ (by simp [hm]) ?_⟩
    rw [hm, e1]; exact hp
  · refine ⟨by rw [e1]; exact hc, hlog _ (fun _ _ => by rw [← hgov, hc]) ?_⟩
    rw [hm, e1]
    simp only [KV.set_apply]
    by_cases hxa : a = x
    · rw [if_pos hxa, if_pos hxa.symm]; simp
    · rw [if_neg hxa, if_neg (Ne.symm hxa)]; exact hp
  · refine ⟨by rw [e1]; exact hc, hlog _ (fun _ _ => by rw [← hgov, hc]) ?_⟩
    rw [hm, e1]
    simp only [KV.erase_apply]
    by_cases hxa : a = x
    · rw [if_pos hxa, if_pos hxa.symm]; simp
    · rw [if_neg hxa, if_neg (Ne.symm hxa)]; exact hp

/-- C48: sessions come into being only by a call of an account that is authorised at that moment; the
workers are told the session's id, message and chain and the keys of its worker set. -/
theorem C48_authorised (cs : List Call) (c : Call) {s' : State} {r : Resp}
    (hx : exec C idOf (stateAfter C idOf cfg cs) c = .ok (s', r)) (id : Nat)
    (h1 : (stateAfter C idOf cfg cs).sessions id = none) (h2 : s'.sessions id ≠ none) :
    authorizedIn (trace C idOf cfg cs) c.sender = true ∧ r.data = some id ∧
      ∃ wid msg chain ok ws, c.msg = .startSigningSession wid msg chain ok ∧
        getWorkerSet (stateAfter C idOf cfg cs) wid = some ws ∧
        r.events = [.signingStarted id wid (ws.signers.map (fun e => (e.1, e.2.pubKey))) msg chain] := by
  have hca := (C48_callers C idOf cfg cs c.sender).1
  have hb := (invariants C idOf cfg cs).1
  revert hx h1 hca hb
  generalize stateAfter C idOf cfg cs = s
  intro hx h1 hca hb
  rcases exec_ok hx with ⟨wid, msg, chain, ok, hm, h⟩ | ⟨i, b, hm, h⟩ | ⟨raw, ws, hm, hd, e1, e2⟩ |
    ⟨kt, b, k, hm, hk, e1, e2⟩ | ⟨a, hm, hg, e1, e2⟩ | ⟨a, hm, hg, e1, e2⟩
  · obtain ⟨ha, _, hl, hc, ws, hw, e1, e2⟩ := start_ok.mp h
    rw [e1] at h2
    simp only [KV.set_apply] at h2
    split at h2
    · rename_i heq
      exact ⟨hca.mp ha, by rw [e2, heq], wid, msg, chain, ok, ws, hm, hw, by rw [e2, heq]; rfl⟩
    · exact absurd h1 h2
  · obtain ⟨se0, ws, sg, sig', w, k1, k2, k3, k4, k5, k6, k7, k8, e1, e2⟩ := submit_ok.mp h
    rw [e1] at h2
    simp only [KV.set_apply, (hb.sess i se0 k1).1] at h2
    split at h2
    · rename_i heq; rw [heq, k1] at h1; simp at h1
    · exact absurd h1 h2
  all_goals
    rw [e1] at h2
    exact absurd h1 h2

example : startedIds (trace exCrypto exId exCfg exCalls) = [1] ∧
    authorizedIn (trace exCrypto exId exCfg exCalls) 30 = false ∧
    authorizedIn (trace exCrypto exId exCfg (exCalls.take 9)) 30 = true := by decide

/-! ### C49 -/

/-- C49: a set is only ever stored under its own id, after having been registered. -/
theorem C49_content_addressed (cs : List Call) (wid : Str) (ws : WorkerSet)
    (h : getWorkerSet (stateAfter C idOf cfg cs) wid = some ws) :
    idOf ws = wid ∧ Registered (trace C idOf cfg cs) ws :=
  ⟨((invariants C idOf cfg cs).1.sets wid ws h).1, ((invariants C idOf cfg cs).1.sets wid ws h).2.1⟩

/-- C49: every registered set can be retrieved under its id; the set an id stands for never changes, as
long as no two registered sets collide. -/
theorem C49_stable (cs : List Call) (hnc : NoCollision idOf (trace C idOf cfg cs)) (wid : Str)
    (ws : WorkerSet) :
    getWorkerSet (stateAfter C idOf cfg cs) wid = some ws ↔
      idOf ws = wid ∧ Registered (trace C idOf cfg cs) ws := by
  refine ⟨C49_content_addressed C idOf cfg cs wid ws, ?_⟩
  rintro ⟨rfl, hr⟩
  have key := steps_inv (exec C idOf) (P := fun log s => ∀ ws, Registered log ws →
    ∃ ws', s.workerSets (idOf ws) = some ws') (init cfg)
    (by rintro ws ⟨st, h, _⟩; simp at h) ?_ cs
  · obtain ⟨ws', h⟩ := key ws hr
    obtain ⟨g1, g2⟩ := C49_content_addressed C idOf cfg cs _ ws' h
    have := hnc ws' ws g2 hr g1
    subst this
    exact h
  intro log s c s' r hp hx ws0 hr0
  obtain ⟨st, hst, raw0, hm0, hd0⟩ := hr0
  have hmono : ∀ wid, s.workerSets wid ≠ none → s'.workerSets wid ≠ none := by
    intro wid hne
    rcases exec_ok hx with ⟨wid', msg, chain, ok, hm, h⟩ | ⟨i, b, hm, h⟩ | ⟨raw, ws1, hm, hd, e1, e2⟩ |
      ⟨kt, b, k, hm, hk, e1, e2⟩ | ⟨a, hm, hg, e1, e2⟩ | ⟨a, hm, hg, e1, e2⟩
    · obtain ⟨_, _, hl, hc, ws, hw, e1, e2⟩ := start_ok.mp h
      rw [e1]; exact hne
    · obtain ⟨se0, ws, sg, sig', w, k1, k2, k3, k4, k5, k6, k7, k8, e1, e2⟩ := submit_ok.mp h
      rw [e1]; exact hne
    · rw [e1]
      simp only [KV.set_apply]
      split
      · simp
      · exact hne
    all_goals
      rw [e1]; exact hne
  rcases List.mem_append.mp hst with hst | hst
  · obtain ⟨ws', h⟩ := hp ws0 ⟨st, hst, raw0, hm0, hd0⟩
    have := hmono (idOf ws0) (by rw [h]; simp)
    cases hs : s'.workerSets (idOf ws0) with
    | none => exact absurd hs this
    | some w => exact ⟨w, rfl⟩
  · simp only [List.mem_singleton] at hst
    subst hst
    simp only at hm0
    simp only [exec, hm0, registerWorkerSet, hd0, Except.ok.injEq, Prod.mk.injEq] at hx
    rw [← hx.1]
    exact ⟨ws0, by simp [KV.set_apply]⟩

/-- C49: the set reported for an id stays the same for ever. -/
theorem C49_forever (cs₁ cs₂ : List Call) (hnc : NoCollision idOf (trace C idOf cfg (cs₁ ++ cs₂)))
    (wid : Str) (ws : WorkerSet) (h : getWorkerSet (stateAfter C idOf cfg cs₁) wid = some ws) :
    getWorkerSet (stateAfter C idOf cfg (cs₁ ++ cs₂)) wid = some ws := by
  rw [C49_stable C idOf cfg _ hnc]
  obtain ⟨h1, h2⟩ := C49_content_addressed C idOf cfg cs₁ wid ws h
  refine ⟨h1, ?_⟩
  rw [trace_append]
  exact h2.mono

example : ∃ ws, getWorkerSet (stateAfter exCrypto exId exCfg exCalls) "1".toList = some ws ∧
    ws.threshold = 20 :=
  ⟨⟨[(21, ⟨21, 10, .ecdsa (List.replicate 33 1)⟩), (22, ⟨22, 10, .ecdsa (List.replicate 33 2)⟩),
    (23, ⟨23, 5, .ecdsa (List.replicate 65 3)⟩)], 20, 1⟩, by rfl, rfl⟩

/-! ### C50 -/

/-- C50: an accepted signature produces exactly one record, for its session and signer, addressed to the
rewards contract; no other call produces any. -/
theorem C50_per_call (cs : List Call) (st : Step State Call Resp) (hst : st ∈ trace C idOf cfg cs) :
    st.resp.records = match st.call.msg with
      | .submitSignature id _ => [⟨cfg.rewards, showNat id, st.call.sender⟩]
      | _ => [] := by
  obtain ⟨⟨cs₁, cs₂, _, hpre⟩, hx⟩ := steps_mem _ hst
  have hcfg : st.pre.config = cfg := by
    rw [hpre]
    have := steps_inv (exec C idOf) (P := fun _ s => s.config = cfg) (init cfg) rfl (by
      intro log s c s' r hp hx
      rcases exec_ok hx with ⟨wid', msg, chain, ok, hm, h⟩ | ⟨i, b, hm, h⟩ |
        ⟨raw, ws1, hm, hd, e1, e2⟩ | ⟨kt, b, k, hm, hk, e1, e2⟩ | ⟨a, hm, hg, e1, e2⟩ |
        ⟨a, hm, hg, e1, e2⟩
      · obtain ⟨_, _, hl, hc, ws, hw, e1, e2⟩ := start_ok.mp h
        rw [e1]; exact hp
      · obtain ⟨se0, ws, sg, sig', w, k1, k2, k3, k4, k5, k6, k7, k8, e1, e2⟩ := submit_ok.mp h
        rw [e1]; exact hp
      all_goals
        rw [e1]; exact hp) cs₁
    exact this
  rcases exec_ok hx with ⟨wid', msg, chain, ok, hm, h⟩ | ⟨i, b, hm, h⟩ | ⟨raw, ws1, hm, hd, e1, e2⟩ |
    ⟨kt, b, k, hm, hk, e1, e2⟩ | ⟨a, hm, hg, e1, e2⟩ | ⟨a, hm, hg, e1, e2⟩
  · obtain ⟨_, _, hl, hc, ws, hw, e1, e2⟩ := start_ok.mp h
    rw [e2, hm]
  · obtain ⟨se0, ws, sg, sig', w, k1, k2, k3, k4, k5, k6, k7, k8, e1, e2⟩ := submit_ok.mp h
    rw [e2, hm, hcfg]; rfl
  all_goals
    rw [e2, hm]

/-- C50: over any history, a record for (session, signer) is sent exactly once if a signature of the
signer is recorded for the session, and never otherwise. -/
theorem C50_exactly_once (cs : List Call) :
    (recordsSent (trace C idOf cfg cs)).Nodup ∧
    ∀ rec, rec ∈ recordsSent (trace C idOf cfg cs) ↔
      ∃ id a sig, rec = ⟨cfg.rewards, showNat id, a⟩ ∧
        ((stateAfter C idOf cfg cs).signatures id).get? a = some sig := by
  have key := steps_inv (exec C idOf) (P := fun log s => s.config = cfg ∧ (recordsSent log).Nodup ∧
    ∀ rec, rec ∈ recordsSent log ↔ ∃ id a sig, rec = ⟨cfg.rewards, showNat id, a⟩ ∧
        (s.signatures id).get? a = some sig) (init cfg)
    ⟨rfl, List.nodup_nil, by simp [recordsSent, init]⟩ ?_ cs
  · exact key.2
  rintro log s c s' r ⟨hcfg, hnd, hmem⟩ hx
  have hrs : recordsSent (log ++ [⟨s, c, r, s'⟩]) = recordsSent log ++ r.records := by
    simp [recordsSent]
  rw [hrs]
  rcases exec_ok hx with ⟨wid', msg, chain, ok, hm, h⟩ | ⟨i, b, hm, h⟩ | ⟨raw, ws1, hm, hd, e1, e2⟩ |
    ⟨kt, b, k, hm, hk, e1, e2⟩ | ⟨a, hm, hg, e1, e2⟩ | ⟨a, hm, hg, e1, e2⟩
  · obtain ⟨_, _, hl, hc, ws, hw, e1, e2⟩ := start_ok.mp h
    rw [e2, e1]
    simp only [List.append_nil]
    exact ⟨hcfg, hnd, hmem⟩
  · obtain ⟨se0, ws, sg, sig', w, k1, k2, k3, k4, k5, k6, k7, k8, e1, e2⟩ := submit_ok.mp h
    have hrec : r.records = [⟨cfg.rewards, showNat i, c.sender⟩] := by rw [e2, ← hcfg]; rfl
    rw [hrec]
    have hsig : ∀ id a, (s'.signatures id).get? a =
        if id = i ∧ a = c.sender then some sig' else (s.signatures id).get? a := by
      intro id a
      rw [e1]
      simp only [addSig]
      by_cases hid : id = i
      · subst hid
        rw [if_pos rfl, OMap.get?_set]
        by_cases ha : a = c.sender
        · rw [if_pos ha, if_pos ⟨rfl, ha⟩]
        · rw [if_neg ha, if_neg (fun hh => ha hh.2)]
      · rw [if_neg hid, if_neg (fun hh => hid hh.1)]
    refine ⟨by rw [e1]; exact hcfg, ?_, ?_⟩
    · rw [List.nodup_append]
      refine ⟨hnd, by simp, ?_⟩
      intro x hx1 y hy hxy
      simp only [List.mem_singleton] at hy
      subst hxy
      subst hy
      obtain ⟨id, a, sig, heq, hg⟩ := (hmem _).mp hx1
      simp only [Record.mk.injEq, true_and] at heq
      have hid := showNat_inj heq.1
      subst hid
      rw [← heq.2, k7] at hg
      simp at hg
    · intro rec
      rw [List.mem_append, hmem, List.mem_singleton]
      constructor
      · rintro (⟨id, a, sig, h1, h2⟩ | h1)
        · refine ⟨id, a, sig, h1, ?_⟩
          rw [hsig, if_neg]
          · exact h2
          · rintro ⟨rfl, rfl⟩; rw [k7] at h2; simp at h2
        · exact ⟨i, c.sender, sig', h1, by rw [hsig, if_pos ⟨rfl, rfl⟩]⟩
      · rintro ⟨id, a, sig, h1, h2⟩
        rw [hsig] at h2
        split at h2
        · rename_i hh
          right
          rw [h1, hh.1, hh.2]
        · left
          exact ⟨id, a, sig, h1, h2⟩
  all_goals
    rw [e2, e1]
    simp only [List.append_nil]
    exact ⟨hcfg, hnd, hmem⟩

/-- C50: completion is announced exactly once for every completed session, with the height at which it
was completed, and for no other session. -/
theorem C50_completion_once (cs : List Call) :
    ((completions (trace C idOf cfg cs)).map Prod.fst).Nodup ∧
    ∀ id h, (id, h) ∈ completions (trace C idOf cfg cs) ↔
      ∃ se, (stateAfter C idOf cfg cs).sessions id = some se ∧ se.state = .completed h := by
  have key := steps_inv (exec C idOf) (P := fun log s => Base idOf log s ∧
    ((completions log).map Prod.fst).Nodup ∧
    ∀ id h, (id, h) ∈ completions log ↔
      ∃ se, s.sessions id = some se ∧ se.state = .completed h) (init cfg)
    ⟨base_init cfg, List.nodup_nil, by simp [completions, init]⟩ ?_ cs
  · exact key.2
  rintro log s c s' r ⟨hb, hnd, hmem⟩ hx
  refine ⟨base_step hb hx, ?_⟩
  have hcs : completions (log ++ [⟨s, c, r, s'⟩]) = completions log ++
      r.events.filterMap (fun e => match e with
        | .signingCompleted id h => some (id, h)
        | _ => none) := by
    simp only [completions, List.flatMap_append, List.flatMap_cons, List.flatMap_nil, List.append_nil]
    rfl
  rw [hcs]
  have same : r.events.filterMap (fun e => match e with
        | .signingCompleted id h => some (id, h)
        | _ => none) = [] → s'.sessions = s.sessions →
      ((completions log ++ r.events.filterMap (fun e => match e with
        | .signingCompleted id h => some (id, h)
        | _ => none)).map Prod.fst).Nodup ∧
      ∀ id h, (id, h) ∈ completions log ++ r.events.filterMap (fun e => match e with
        | .signingCompleted id h => some (id, h)
        | _ => none) ↔ ∃ se, s'.sessions id = some se ∧ se.state = .completed h := by
    intro h1 h2
    rw [h1, h2, List.append_nil]
    exact ⟨hnd, hmem⟩
  rcases exec_ok hx with ⟨wid', msg, chain, ok, hm, h⟩ | ⟨i, b, hm, h⟩ | ⟨raw, ws1, hm, hd, e1, e2⟩ |
    ⟨kt, b, k, hm, hk, e1, e2⟩ | ⟨a, hm, hg, e1, e2⟩ | ⟨a, hm, hg, e1, e2⟩
  · obtain ⟨_, _, hl, hc, ws, hw, e1, e2⟩ := start_ok.mp h
    rw [e2, e1]
    simp only [List.filterMap_cons, List.filterMap_nil, List.append_nil]
    refine ⟨hnd, ?_⟩
    intro id h'
    rw [hmem]
    simp only [KV.set_apply]
    by_cases hid : id = s.counter + 1
    · rw [if_pos hid]
      constructor
      · rintro ⟨se, g1, _⟩
        obtain ⟨_, _, g3, _⟩ := hb.sess id se g1
        omega
      · rintro ⟨se, g1, g2⟩
        simp only [Option.some.injEq] at g1
        subst g1
        simp at g2
    · rw [if_neg hid]
  · obtain ⟨se0, ws, sg, sig', w, k1, k2, k3, k4, k5, k6, k7, k8, e1, e2⟩ := submit_ok.mp h
    obtain ⟨q1, _⟩ := hb.sess i se0 k1
    have hsess : ∀ id, s'.sessions id =
        if id = i then some { se0 with state := nextState se0 ws w c.height } else s.sessions id := by
      intro id; rw [e1]; simp only [KV.set_apply, q1]
    by_cases hcond : se0.state = .pending ∧ ws.threshold ≤ w
    · have hns : nextState se0 ws w c.height = .completed c.height := by
        unfold nextState; rw [if_pos hcond]
      have hev : r.events.filterMap (fun e => match e with
        | .signingCompleted id h => some (id, h)
        | _ => none) = [(i, c.height)] := by
        rw [e2, hns]
        simp [signingResponse, hcond.1]
      rw [hev]
      refine ⟨?_, ?_⟩
      · rw [List.map_append, List.nodup_append]
        refine ⟨hnd, by simp, ?_⟩
        intro x hx1 y hy hxy
        simp only [List.map_cons, List.map_nil, List.mem_singleton] at hy
        subst hxy
        subst hy
        obtain ⟨⟨id, h'⟩, hin, heq⟩ := List.mem_map.mp hx1
        simp only at heq
        subst heq
        obtain ⟨se, g1, g2⟩ := (hmem _ _).mp hin
        rw [k1] at g1
        simp only [Option.some.injEq] at g1
        subst g1
        rw [hcond.1] at g2
        simp at g2
      · intro id h'
        rw [List.mem_append, hmem, List.mem_singleton, hsess]
        by_cases hid : id = i
        · subst hid
          rw [if_pos rfl, hns, k1]
          simp only [Option.some.injEq, exists_eq_left', hcond.1, reduceCtorEq, false_or,
            Prod.mk.injEq, true_and]
          constructor
          · rintro rfl; rfl
          · intro g; simpa using g.symm
        · rw [if_neg hid]
          simp [hid]
    · have hns : nextState se0 ws w c.height = se0.state := by
        unfold nextState; rw [if_neg hcond]
      have hev : r.events.filterMap (fun e => match e with
        | .signingCompleted id h => some (id, h)
        | _ => none) = [] := by
        rw [e2, hns]
        simp only [signingResponse, ne_eq, not_true_eq_false, decide_false]
        cases se0.state <;> rfl
      rw [hev, List.append_nil]
      refine ⟨hnd, ?_⟩
      intro id h'
      rw [hmem, hsess]
      by_cases hid : id = i
      · subst hid
        rw [if_pos rfl, hns, k1]
      · rw [if_neg hid]
  all_goals
    exact same (by rw [e2]; rfl) (by rw [e1])

example : recordsSent (trace exCrypto exId exCfg exCalls2) =
      [⟨2, "1".toList, 22⟩, ⟨2, "1".toList, 21⟩, ⟨2, "1".toList, 23⟩] ∧
    completions (trace exCrypto exId exCfg exCalls2) = [(1, 4)] := by decide

/-! ### C51 -/

/-- C51: the key reported for (worker, type) is the one that worker itself registered last for the type;
it has the length of its type; and the query fails (without panicking) exactly if there is none. -/
theorem C51_registered_key (cs : List Call) (a : Addr) (kt : KeyType) :
    (∀ k, getPublicKey (stateAfter C idOf cfg cs) a kt = .ok k ↔
      k.keyType = kt ∧ lastKey (trace C idOf cfg cs) a kt = some k.bytes) ∧
    (∀ k, getPublicKey (stateAfter C idOf cfg cs) a kt = .ok k → keyLength kt k.bytes.length) ∧
    (getPublicKey (stateAfter C idOf cfg cs) a kt = .error .std ↔
      lastKey (trace C idOf cfg cs) a kt = none) := by
  have key := steps_inv (exec C idOf) (P := fun log s => s.pubKeys (a, kt) = lastKey log a kt ∧
    ∀ b, s.pubKeys (a, kt) = some b → keyLength kt b.length) (init cfg)
    ⟨rfl, by simp [init]⟩ ?_ cs
  · obtain ⟨h1, h2⟩ := key
    have h1' : (stateAfter C idOf cfg cs).pubKeys (a, kt) = lastKey (trace C idOf cfg cs) a kt := h1
    have h2' : ∀ b, (stateAfter C idOf cfg cs).pubKeys (a, kt) = some b → keyLength kt b.length := h2
    unfold getPublicKey
    rw [← h1']
    cases hp : (stateAfter C idOf cfg cs).pubKeys (a, kt) with
    | none => simp
    | some b =>
      have hl := h2' b hp
      have hex : ∃ k0, PublicKey.tryFrom kt b = .ok k0 := by
        cases kt with
        | ecdsa => exact ⟨.ecdsa b, key_ok.mpr ⟨hl, rfl, rfl⟩⟩
        | ed25519 => exact ⟨.ed25519 b, key_ok.mpr ⟨hl, rfl, rfl⟩⟩
      obtain ⟨k0, hk0⟩ := hex
      obtain ⟨_, g1, g2⟩ := key_ok.mp hk0
      simp only [hk0, Except.ok.injEq, Option.some.injEq, reduceCtorEq, iff_self, and_true]
      refine ⟨?_, ?_⟩
      · intro k
        constructor
        · rintro rfl; exact ⟨g1, g2.symm⟩
        · rintro ⟨e1, e2⟩
          have := key_ok.mpr ⟨hl, e1, e2.symm⟩
          rw [hk0] at this
          simpa using this
      · rintro k rfl
        rw [g2]; exact hl
  rintro log s c s' r ⟨hp, hl⟩ hx
  have hfold : lastKey (log ++ [⟨s, c, r, s'⟩]) a kt = (match c.msg with
      | .registerPublicKey kt' b => if c.sender = a ∧ kt' = kt then some b else lastKey log a kt
      | _ => lastKey log a kt) := by
    unfold lastKey
    rw [List.foldl_append]
    rfl
  rw [hfold]
  rcases exec_ok hx with ⟨wid', msg, chain, ok, hm, h⟩ | ⟨i, b, hm, h⟩ | ⟨raw, ws1, hm, hd, e1, e2⟩ |
    ⟨kt', b, k, hm, hk, e1, e2⟩ | ⟨x, hm, hg, e1, e2⟩ | ⟨x, hm, hg, e1, e2⟩
  · obtain ⟨_, _, hl', hc, ws, hw, e1, e2⟩ := start_ok.mp h
    rw [hm, e1]; exact ⟨hp, hl⟩
  · obtain ⟨se0, ws, sg, sig', w, k1, k2, k3, k4, k5, k6, k7, k8, e1, e2⟩ := submit_ok.mp h
    rw [hm, e1]; exact ⟨hp, hl⟩
  · rw [hm, e1]; exact ⟨hp, hl⟩
  · rw [hm, e1]
    simp only [KV.set_apply]
    by_cases hh : c.sender = a ∧ kt' = kt
    · rw [if_pos hh, if_pos (by rw [hh.1, hh.2])]
      refine ⟨rfl, ?_⟩
      intro b' hb'
      simp only [Option.some.injEq] at hb'
      subst hb'
      rw [← hh.2]
      exact (key_ok.mp hk).1
    · rw [if_neg hh, if_neg]
      · exact ⟨hp, hl⟩
      · intro heq
        simp only [Prod.mk.injEq] at heq
        exact hh ⟨heq.1.symm, heq.2.symm⟩
  · rw [hm, e1]; exact ⟨hp, hl⟩
  · rw [hm, e1]; exact ⟨hp, hl⟩

/-- C51: recorded signatures have exactly the length of their type. -/
theorem C51_signature_length (cs : List Call) (hnc : NoCollision idOf (trace C idOf cfg cs))
    (id : Nat) (a : Addr) (sig : Signature)
    (h : ((stateAfter C idOf cfg cs).signatures id).get? a = some sig) :
    match sig with
    | .ecdsa b => b.length = 64
    | .ecdsaRecoverable b => b.length = 65
    | .ed25519 b => b.length = 64 := by
  obtain ⟨hb, hi⟩ := invariants C idOf cfg cs
  obtain ⟨_, se, hse⟩ := hb.sig id a sig h
  obtain ⟨ws, hws⟩ := hb.set id se hse
  obtain ⟨sg, _, hv⟩ := (hi hnc).sig id a sig se ws h hse hws
  cases hk : sg.pubKey <;> cases sig <;> rw [hk] at hv <;> first
    | exact hv.1
    | exact False.elim hv

example : getPublicKey (stateAfter exCrypto exId exCfg exCalls) 21 .ecdsa =
      .ok (.ecdsa (List.replicate 33 1)) ∧
    getPublicKey (stateAfter exCrypto exId exCfg exCalls) 22 .ecdsa = .error .std := ⟨rfl, rfl⟩

end Amp.Multisig
