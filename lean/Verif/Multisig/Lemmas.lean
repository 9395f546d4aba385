import Verif.Multisig.Spec
import Mathlib.Tactic.Cases
import Mathlib.Tactic.ByContra
import Mathlib.Algebra.Order.Ring.Nat
import Mathlib.Algebra.BigOperators.Group.List.Basic

/-!
# Lemmas about the multisig contract
-/

namespace Amp.Multisig

variable {C : Crypto} {idOf : WorkerSet → Str}

/-! ### keys and signatures -/

theorem key_ok {kt : KeyType} {b : Bin} {k : PublicKey} :
    PublicKey.tryFrom kt b = .ok k ↔ keyLength kt b.length ∧ k.keyType = kt ∧ k.bytes = b := by
  unfold PublicKey.tryFrom keyLength
  cases kt with
  | ecdsa =>
    simp only
    split
    · rename_i h
      simp only [reduceCtorEq, false_iff]
      rintro ⟨h1, _⟩
      omega
    · rename_i h
      have : b.length = 33 ∨ b.length = 65 := by omega
      simp only [Except.ok.injEq, this, true_and]
      cases k with
      | ecdsa x => simp [PublicKey.keyType, PublicKey.bytes, eq_comm]
      | ed25519 x => simp [PublicKey.keyType, PublicKey.bytes]
  | ed25519 =>
    simp only
    split
    · rename_i h
      simp only [reduceCtorEq, false_iff]
      rintro ⟨h1, _⟩
      exact h h1
    · rename_i h
      have : b.length = 32 := by omega
      simp only [Except.ok.injEq, this, true_and]
      cases k with
      | ecdsa x => simp [PublicKey.keyType, PublicKey.bytes]
      | ed25519 x => simp [PublicKey.keyType, PublicKey.bytes, eq_comm]

/-- parsing for the key's type and verifying is validity -/
theorem valid_iff {msg b : Bin} {key : PublicKey} {sig : Signature} :
    (Signature.tryFrom key.keyType b = .ok sig ∧ sig.verify C msg key = .ok true) ↔
      Valid C msg key sig ∧ sig.bytes = b := by
  unfold Signature.tryFrom Signature.verify Valid
  cases key with
  | ecdsa k =>
    simp only [PublicKey.keyType]
    cases sig with
    | ecdsa x =>
      simp only [Signature.keyType, Signature.bytes, PublicKey.bytes]
      constructor
      · rintro ⟨h1, h2⟩
        split at h1
        · simp at h1
        · split at h1
          · rename_i hl
            simp only [Except.ok.injEq, Signature.ecdsa.injEq] at h1
            subst h1
            cases hv : C.secp256k1Verify msg b k with
            | none => rw [hv] at h2; simp at h2
            | some y => rw [hv] at h2; simp at h2; subst h2; exact ⟨⟨hl, rfl⟩, rfl⟩
          · simp at h1
      · rintro ⟨⟨h1, h2⟩, rfl⟩
        have : x.length ≠ 65 := by omega
        simp [h1, h2]
    | ecdsaRecoverable x =>
      simp only [Signature.keyType, Signature.bytes, PublicKey.bytes]
      constructor
      · rintro ⟨h1, h2⟩
        split at h1
        · rename_i hl
          simp only [Except.ok.injEq, Signature.ecdsaRecoverable.injEq] at h1
          subst h1
          cases hv : C.secp256k1Verify msg b k with
          | none => rw [hv] at h2; simp at h2
          | some y => rw [hv] at h2; simp at h2; subst h2; exact ⟨⟨hl, rfl⟩, rfl⟩
        · split at h1 <;> simp at h1
      · rintro ⟨⟨h1, h2⟩, rfl⟩
        simp [h1, h2]
    | ed25519 x =>
      simp only [Signature.keyType, false_and, iff_false]
      rintro ⟨_, h2⟩
      simp at h2
  | ed25519 k =>
    simp only [PublicKey.keyType]
    cases sig with
    | ecdsa x =>
      simp only [Signature.keyType, false_and, iff_false]
      rintro ⟨_, h2⟩
      simp at h2
    | ecdsaRecoverable x =>
      simp only [Signature.keyType, false_and, iff_false]
      rintro ⟨_, h2⟩
      simp at h2
    | ed25519 x =>
      simp only [Signature.keyType, Signature.bytes, PublicKey.bytes]
      constructor
      · rintro ⟨h1, h2⟩
        split at h1
        · rename_i hl
          simp only [Except.ok.injEq, Signature.ed25519.injEq] at h1
          subst h1
          cases hv : C.ed25519Verify msg b k with
          | none => rw [hv] at h2; simp at h2
          | some y => rw [hv] at h2; simp at h2; subst h2; exact ⟨⟨hl, rfl⟩, rfl⟩
        · simp at h1
      · rintro ⟨⟨h1, h2⟩, rfl⟩
        simp [h1, h2]

theorem validate_ok {se : Session} {sig : Signature} {key : PublicKey} {grace height : Nat} :
    validateSignature C se sig key grace height = .ok () ↔
      Open se.state grace height ∧ sig.verify C se.msg key = .ok true := by
  unfold validateSignature Open
  have hlast : ∀ (x : Except Err Bool), (match x with
      | .error e => Except.error e
      | .ok false => .error Err.invalidSignature
      | .ok true => .ok ()) = Except.ok () ↔ x = .ok true := by
    intro x
    cases x with
    | error e => simp
    | ok b => cases b <;> simp
  cases hs : se.state with
  | pending =>
    simp only [true_or, true_and]
    exact hlast _
  | completed c =>
    simp only [reduceCtorEq, false_or, SessionState.completed.injEq]
    by_cases h1 : c + grace > u64Max
    · rw [if_pos h1]
      simp only [reduceCtorEq, false_iff]
      rintro ⟨⟨c', rfl, h2, _⟩, _⟩
      exact absurd h2 (Nat.not_le.mpr h1)
    · rw [if_neg h1]
      by_cases h2 : c + grace < height
      · rw [decide_eq_true h2]
        simp only [reduceCtorEq, false_iff]
        rintro ⟨⟨c', rfl, _, h3⟩, _⟩
        exact absurd h3 (Nat.not_le.mpr h2)
      · rw [decide_eq_false h2]
        have : ∃ c_1, c = c_1 ∧ c_1 + grace ≤ u64Max ∧ height ≤ c_1 + grace :=
          ⟨c, rfl, Nat.le_of_not_lt h1, Nat.le_of_not_lt h2⟩
        simp only [this, true_and]
        exact hlast _

/-! ### weights -/

/-- weight of an address in a worker set -/
def weightOf (ws : WorkerSet) (a : Addr) : Nat :=
  match ws.signers.get? a with
  | none => 0
  | some sg => sg.weight

theorem signersWeight_ok {sigs : OMap Addr Signature} {ws : WorkerSet} {w : Nat} :
    signersWeight sigs ws = .ok w ↔
      (∀ e ∈ sigs, ws.signers.get? e.1 ≠ none) ∧ w = sigs.sumBy (fun a _ => weightOf ws a) ∧
        w ≤ u256Max := by
  unfold signersWeight
  have key : ∀ (sigs : OMap Addr Signature) (l : List Nat),
      mapE (fun e => match ws.signers.get? e.1 with
        | none => .error Err.panic
        | some sg => .ok sg.weight) sigs = .ok l ↔
      (∀ e ∈ sigs, ws.signers.get? e.1 ≠ none) ∧ l = sigs.map (fun e => weightOf ws e.1) := by
    intro sigs
    induction sigs with
    | nil => intro l; simp [mapE, eq_comm]
    | cons e t ih =>
      intro l
      rw [mapE_cons_ok]
      cases hg : ws.signers.get? e.1 with
      | none => simp [hg]
      | some sg =>
        simp only [Except.ok.injEq, List.mem_cons, forall_eq_or_imp, hg, List.map_cons]
        constructor
        · rintro ⟨b, r, rfl, h2, rfl⟩
          obtain ⟨h3, rfl⟩ := (ih r).mp h2
          exact ⟨⟨by simp, h3⟩, by simp [weightOf, hg]⟩
        · rintro ⟨⟨_, h3⟩, rfl⟩
          exact ⟨sg.weight, _, rfl, (ih _).mpr ⟨h3, rfl⟩, by simp [weightOf, hg]⟩
  cases hm : mapE (fun e => match ws.signers.get? e.1 with
        | none => .error Err.panic
        | some sg => .ok sg.weight) sigs with
  | error e =>
    simp only [reduceCtorEq, false_iff]
    rintro ⟨h1, _⟩
    have := (key sigs _).mpr ⟨h1, rfl⟩
    rw [hm] at this
    simp at this
  | ok l =>
    obtain ⟨h1, rfl⟩ := (key sigs l).mp hm
    simp only [OMap.sumBy]
    generalize u256Max = M
    split
    · rename_i h
      simp only [reduceCtorEq, false_iff]
      rintro ⟨_, rfl, h2⟩
      omega
    · rename_i h
      simp only [Except.ok.injEq]
      constructor
      · rintro rfl; exact ⟨h1, rfl, by omega⟩
      · rintro ⟨_, rfl, _⟩; rfl

theorem recalculate_ok {se se' : Session} {sigs : OMap Addr Signature} {ws : WorkerSet} {h : Nat} :
    recalculate se sigs ws h = .ok se' ↔ ∃ w, signersWeight sigs ws = .ok w ∧
      se' = { se with state :=
        if se.state = .pending ∧ ws.threshold ≤ w then .completed h else se.state } := by
  unfold recalculate
  cases hw : signersWeight sigs ws with
  | error e => simp
  | ok w =>
    simp only [Except.ok.injEq, exists_eq_left']
    by_cases hc : se.state = .pending ∧ ws.threshold ≤ w
    · rw [if_pos hc, if_pos hc]
      simp only [Except.ok.injEq, eq_comm]
    · rw [if_neg hc, if_neg hc]
      simp only [Except.ok.injEq]
      exact eq_comm

/-! ### what calls do -/

/-- session state after a signature brought the weight to `w` -/
def nextState (se : Session) (ws : WorkerSet) (w h : Nat) : SessionState :=
  if se.state = .pending ∧ ws.threshold ≤ w then .completed h else se.state

/-- signatures after adding one -/
def addSig (s : State) (id : Nat) (a : Addr) (sig : Signature) : Nat → OMap Addr Signature :=
  fun i => if i = id then (s.signatures id).set a sig else s.signatures i

theorem submit_ok {s s' : State} {a : Addr} {h id : Nat} {b : Bin} {r : Resp} :
    submitSignature C s a h id b = .ok (s', r) ↔
      ∃ se ws sg sig w, s.sessions id = some se ∧ s.workerSets se.workerSetId = some ws ∧
        ws.signers.get? a = some sg ∧ Valid C se.msg sg.pubKey sig ∧ sig.bytes = b ∧
        Open se.state s.config.gracePeriod h ∧ (s.signatures id).get? a = none ∧
        signersWeight ((s.signatures id).set a sig) ws = .ok w ∧
        s' = { s with signatures := addSig s id a sig
                      sessions := s.sessions.set se.id { se with state := nextState se ws w h } } ∧
        r = signingResponse id (nextState se ws w h) (decide (se.state ≠ nextState se ws w h)) a sig
          s.config.rewards := by
  unfold submitSignature
  cases h1 : s.sessions id with
  | none => simp
  | some se =>
  simp only
  cases h2 : s.workerSets se.workerSetId with
  | none => simp [h2]
  | some ws =>
  simp only
  cases h3 : ws.signers.get? a with
  | none =>
    simp only [reduceCtorEq, false_iff, not_exists]
    rintro se' ws' sg sig w ⟨g1, g2, g3, _⟩
    simp only [Option.some.injEq] at g1
    subst g1
    rw [h2] at g2
    simp only [Option.some.injEq] at g2
    subst g2
    rw [h3] at g3
    simp at g3
  | some sg =>
  simp only
  constructor
  · intro hx
    cases h4 : Signature.tryFrom sg.pubKey.keyType b with
    | error e => rw [h4] at hx; simp at hx
    | ok sig =>
    rw [h4] at hx
    simp only at hx
    cases h5 : validateSignature C se sig sg.pubKey s.config.gracePeriod h with
    | error e => rw [h5] at hx; simp at hx
    | ok u =>
    rw [h5] at hx
    simp only at hx
    obtain ⟨h6, h7⟩ := validate_ok.mp h5
    obtain ⟨h8, h9⟩ := valid_iff.mp ⟨h4, h7⟩
    cases h10 : (s.signatures id).get? a with
    | some x => simp [saveSignature, h10] at hx
    | none =>
    simp only [saveSignature, h10] at hx
    simp only [if_true] at hx
    cases h11 : recalculate se ((s.signatures id).set a sig) ws h with
    | error e => rw [h11] at hx; simp at hx
    | ok se' =>
    rw [h11] at hx
    simp only [Except.ok.injEq, Prod.mk.injEq] at hx
    obtain ⟨w, h12, rfl⟩ := recalculate_ok.mp h11
    exact ⟨se, ws, sg, sig, w, rfl, h2, h3, h8, h9, h6, rfl, h12, hx.1.symm, hx.2.symm⟩
  · rintro ⟨se', ws', sg', sig, w, g1, g2, g3, g4, g5, g6, g7, g8, g9, g10⟩
    simp only [Option.some.injEq] at g1
    subst g1
    rw [h2] at g2
    simp only [Option.some.injEq] at g2
    subst g2
    rw [h3] at g3
    simp only [Option.some.injEq] at g3
    subst g3
    obtain ⟨k1, k2⟩ := valid_iff.mpr ⟨g4, g5⟩
    rw [k1]
    simp only
    rw [validate_ok.mpr ⟨g6, k2⟩]
    simp only [saveSignature, g7, if_true]
    rw [recalculate_ok.mpr ⟨w, g8, rfl⟩]
    rw [g9, g10]
    rfl

theorem start_ok {s s' : State} {a : Addr} {wid : Str} {msg : Bin} {chain : Str} {ok : Bool}
    {r : Resp} :
    startSigningSession s a wid msg chain ok = .ok (s', r) ↔
      s.authorized a = some () ∧ ok = true ∧ msg.length = 32 ∧ s.counter + 1 ≤ u64Max ∧
      ∃ ws, s.workerSets wid = some ws ∧
        s' = { s with counter := s.counter + 1
                      sessions := s.sessions.set (s.counter + 1) ⟨s.counter + 1, wid, msg, .pending⟩ } ∧
        r = { data := some (s.counter + 1)
              events := [.signingStarted (s.counter + 1) wid ws.pubKeys msg chain] } := by
  unfold startSigningSession msgToSign
  generalize u64Max = M
  cases h1 : s.authorized a with
  | none => simp
  | some u =>
    cases ok with
    | false => simp
    | true =>
      simp only [Bool.true_eq_false, if_false, true_and]
      by_cases h2 : msg.length = 32
      · rw [if_neg (not_not.mpr h2)]
        simp only [h2, true_and]
        cases h3 : s.workerSets wid with
        | none => simp
        | some ws =>
          simp only [Option.some.injEq, exists_eq_left']
          by_cases h4 : s.counter + 1 > M
          · rw [if_pos h4]
            simp only [reduceCtorEq, false_iff]
            rintro ⟨h5, _⟩
            omega
          · rw [if_neg h4]
            have : s.counter + 1 ≤ M := by omega
            simp only [Except.ok.injEq, Prod.mk.injEq, this, true_and]
            constructor
            · rintro ⟨rfl, rfl⟩; exact ⟨rfl, rfl⟩
            · rintro ⟨rfl, rfl⟩; exact ⟨rfl, rfl⟩
      · rw [if_pos h2]
        simp [h2]

theorem decode_sorted {r : RawWorkerSet} {ws : WorkerSet} (h : r.decode = .ok ws) :
    OMap.Sorted ws.signers := by
  unfold RawWorkerSet.decode at h
  split at h
  · simp at h
  · split at h
    · simp at h
    · simp only [Except.ok.injEq] at h
      subst h
      exact OMap.sorted_ofList _

/-! ### sums over signatures and over members -/

theorem sum_update {ws : OMap Addr Signer} (hs : OMap.Sorted ws) {sigs : OMap Addr Signature}
    {a : Addr} {sig : Signature} {sg : Signer} (hg : ws.get? a = some sg) (hn : sigs.get? a = none) :
    (ws.map (fun e => match (sigs.set a sig).get? e.1 with
      | none => 0
      | some _ => e.2.weight)).sum =
    (ws.map (fun e => match sigs.get? e.1 with
      | none => 0
      | some _ => e.2.weight)).sum + sg.weight := by
  induction ws with
  | nil => simp at hg
  | cons e t ih =>
    obtain ⟨k, v⟩ := e
    rw [OMap.get?_cons] at hg
    simp only [List.map_cons, List.sum_cons]
    by_cases hk : a = k
    · subst hk
      rw [if_pos rfl] at hg
      simp only [Option.some.injEq] at hg
      subst hg
      rw [OMap.get?_set, if_pos rfl, hn]
      have : t.map (fun e => match (sigs.set a sig).get? e.1 with
            | none => 0
            | some _ => e.2.weight) =
          t.map (fun e => match sigs.get? e.1 with
            | none => 0
            | some _ => e.2.weight) := by
        apply List.map_congr_left
        intro e he
        have hlt := hs.head_lt e he
        rw [OMap.get?_set, if_neg (Nat.ne_of_gt hlt)]
      rw [this]
      simp only
      omega
    · rw [if_neg hk] at hg
      rw [ih hs.tail hg, OMap.get?_set, if_neg (Ne.symm hk)]
      omega

/-! ### case analysis of a successful call -/

theorem exec_ok {s s' : State} {c : Call} {r : Resp} (hx : exec C idOf s c = .ok (s', r)) :
    (∃ wid msg chain ok, c.msg = .startSigningSession wid msg chain ok ∧
      startSigningSession s c.sender wid msg chain ok = .ok (s', r)) ∨
    (∃ id b, c.msg = .submitSignature id b ∧
      submitSignature C s c.sender c.height id b = .ok (s', r)) ∨
    (∃ raw ws, c.msg = .registerWorkerSet raw ∧ raw.decode = .ok ws ∧
      s' = { s with workerSets := s.workerSets.set (idOf ws) ws } ∧ r = {}) ∨
    (∃ kt b k, c.msg = .registerPublicKey kt b ∧ PublicKey.tryFrom kt b = .ok k ∧
      s' = { s with pubKeys := s.pubKeys.set (c.sender, kt) b } ∧
      r = { events := [.publicKeyRegistered c.sender k] }) ∨
    (∃ a, c.msg = .authorizeCaller a ∧ s.config.governance = c.sender ∧
      s' = { s with authorized := s.authorized.set a () } ∧ r = { events := [.callerAuthorized a] }) ∨
    (∃ a, c.msg = .unauthorizeCaller a ∧ s.config.governance = c.sender ∧
      s' = { s with authorized := s.authorized.erase a } ∧
      r = { events := [.callerUnauthorized a] }) := by
  unfold exec at hx
  cases hm : c.msg with
  | startSigningSession wid msg chain ok =>
    rw [hm] at hx
    exact Or.inl ⟨wid, msg, chain, ok, rfl, hx⟩
  | submitSignature id b =>
    rw [hm] at hx
    exact Or.inr (Or.inl ⟨id, b, rfl, hx⟩)
  | registerWorkerSet raw =>
    rw [hm] at hx
    simp only [registerWorkerSet] at hx
    cases hd : raw.decode with
    | error e => rw [hd] at hx; simp at hx
    | ok ws =>
      rw [hd] at hx
      simp only [Except.ok.injEq, Prod.mk.injEq] at hx
      exact Or.inr (Or.inr (Or.inl ⟨raw, ws, rfl, hd, hx.1.symm, hx.2.symm⟩))
  | registerPublicKey kt b =>
    rw [hm] at hx
    simp only [registerPubKey] at hx
    cases hd : PublicKey.tryFrom kt b with
    | error e => rw [hd] at hx; simp at hx
    | ok k =>
      rw [hd] at hx
      simp only [Except.ok.injEq, Prod.mk.injEq] at hx
      obtain ⟨_, h2, h3⟩ := key_ok.mp hd
      rw [h2, h3] at hx
      exact Or.inr (Or.inr (Or.inr (Or.inl ⟨kt, b, k, rfl, hd, hx.1.symm, hx.2.symm⟩)))
  | authorizeCaller a =>
    rw [hm] at hx
    simp only at hx
    split at hx
    · simp at hx
    · rename_i hg
      simp only [Except.ok.injEq, Prod.mk.injEq] at hx
      exact Or.inr (Or.inr (Or.inr (Or.inr (Or.inl
        ⟨a, rfl, not_not.mp hg, hx.1.symm, hx.2.symm⟩))))
  | unauthorizeCaller a =>
    rw [hm] at hx
    simp only at hx
    split at hx
    · simp at hx
    · rename_i hg
      simp only [Except.ok.injEq, Prod.mk.injEq] at hx
      exact Or.inr (Or.inr (Or.inr (Or.inr (Or.inr
        ⟨a, rfl, not_not.mp hg, hx.1.symm, hx.2.symm⟩))))

/-! ### invariants -/

theorem Started.mono {log l : List (Step State Call Resp)} {id : Nat} {wid : Str} {msg : Bin}
    (h : Started log id wid msg) : Started (log ++ l) id wid msg := by
  obtain ⟨st, h1, h2⟩ := h
  exact ⟨st, List.mem_append_left _ h1, h2⟩

theorem Submitted.mono {log l : List (Step State Call Resp)} {id : Nat} {a : Addr} {b : Bin}
    (h : Submitted log id a b) : Submitted (log ++ l) id a b := by
  obtain ⟨st, h1, h2⟩ := h
  exact ⟨st, List.mem_append_left _ h1, h2⟩

theorem Registered.mono {log l : List (Step State Call Resp)} {ws : WorkerSet}
    (h : Registered log ws) : Registered (log ++ l) ws := by
  obtain ⟨st, h1, h2⟩ := h
  exact ⟨st, List.mem_append_left _ h1, h2⟩

theorem NoCollision.mono {log l : List (Step State Call Resp)}
    (h : NoCollision idOf (log ++ l)) : NoCollision idOf log :=
  fun w w' h1 h2 h3 => h w w' h1.mono h2.mono h3

/-- holds whatever the hash does -/
structure Base (idOf : WorkerSet → Str) (log : List (Step State Call Resp)) (s : State) : Prop where
  sess : ∀ id se, s.sessions id = some se → se.id = id ∧ 1 ≤ id ∧ id ≤ s.counter ∧
    Started log id se.workerSetId se.msg ∧ se.msg.length = 32
  all : ∀ id, 1 ≤ id → id ≤ s.counter → s.sessions id ≠ none
  set : ∀ id se, s.sessions id = some se → ∃ ws, s.workerSets se.workerSetId = some ws
  sets : ∀ wid ws, s.workerSets wid = some ws → idOf ws = wid ∧ Registered log ws ∧
    OMap.Sorted ws.signers
  sorted : ∀ id, OMap.Sorted (s.signatures id)
  sig : ∀ id a sig, (s.signatures id).get? a = some sig →
    Submitted log id a sig.bytes ∧ ∃ se, s.sessions id = some se

/-- holds if worker set ids do not collide -/
structure Inv (C : Crypto) (s : State) : Prop where
  sig : ∀ id a sig se ws, (s.signatures id).get? a = some sig → s.sessions id = some se →
    s.workerSets se.workerSetId = some ws →
    ∃ sg, ws.signers.get? a = some sg ∧ Valid C se.msg sg.pubKey sig
  weight : ∀ id se ws, s.sessions id = some se → s.workerSets se.workerSetId = some ws →
    (s.signatures id).sumBy (fun a _ => weightOf ws a) = recordedWeight s id ws
  pending : ∀ id se ws, s.sessions id = some se → s.workerSets se.workerSetId = some ws →
    se.state = .pending → recordedWeight s id ws < ws.threshold ∨ s.signatures id = []
  completed : ∀ id se ws h, s.sessions id = some se → s.workerSets se.workerSetId = some ws →
    se.state = .completed h → ws.threshold ≤ recordedWeight s id ws

theorem recordedWeight_nil {s : State} {id : Nat} (h : s.signatures id = []) (ws : WorkerSet) :
    recordedWeight s id ws = 0 := by
  unfold recordedWeight
  rw [h]
  simp

theorem base_init (cfg : Config) : Base idOf [] (init cfg) := by
  refine ⟨?_, ?_, ?_, ?_, ?_, ?_⟩
  · intro id se h; simp [init] at h
  · intro id h1 h2; simp only [init] at h2; omega
  · intro id se h; simp [init] at h
  · intro wid ws h; simp [init] at h
  · intro id; exact OMap.sorted_nil
  · intro id a sig h; simp [init] at h

theorem inv_init (cfg : Config) : Inv C (init cfg) := by
  refine ⟨?_, ?_, ?_, ?_⟩ <;> intro id <;> intros <;> simp_all [init]

theorem base_step {log : List (Step State Call Resp)} {s s' : State} {c : Call} {r : Resp}
    (hb : Base idOf log s) (hx : exec C idOf s c = .ok (s', r)) :
    Base idOf (log ++ [⟨s, c, r, s'⟩]) s' := by
  rcases exec_ok hx with ⟨wid, msg, chain, ok, hm, h⟩ | ⟨id, b, hm, h⟩ | ⟨raw, ws, hm, hd, h1, h2⟩ |
    ⟨kt, b, k, hm, hk, h1, h2⟩ | ⟨a, hm, hg, h1, h2⟩ | ⟨a, hm, hg, h1, h2⟩
  · obtain ⟨_, _, hl, hc, ws, hw, h1, h2⟩ := start_ok.mp h
    refine ⟨?_, ?_, ?_, ?_, ?_, ?_⟩
    · intro id se hse
      rw [h1] at hse ⊢
      simp only [KV.set_apply] at hse ⊢
      split at hse
      · rename_i heq
        simp only [Option.some.injEq] at hse
        subst hse
        refine ⟨heq.symm, by omega, by omega, ⟨_, List.mem_append_right _ (List.mem_singleton.mpr rfl),
          chain, ok, hm, ?_⟩, hl⟩
        rw [h2, heq]
      · obtain ⟨g1, g2, g3, g4, g5⟩ := hb.sess id se hse
        exact ⟨g1, g2, by omega, g4.mono, g5⟩
    · intro id hi1 hi2
      rw [h1] at hi2 ⊢
      simp only [KV.set_apply] at hi2 ⊢
      split
      · simp
      · exact hb.all id hi1 (by omega)
    · intro id se hse
      rw [h1] at hse ⊢
      simp only [KV.set_apply] at hse ⊢
      split at hse
      · simp only [Option.some.injEq] at hse
        subst hse
        exact ⟨ws, hw⟩
      · exact hb.set id se hse
    · intro wid' ws' hws
      rw [h1] at hws
      obtain ⟨g1, g2, g3⟩ := hb.sets wid' ws' hws
      exact ⟨g1, g2.mono, g3⟩
    · intro id; rw [h1]; exact hb.sorted id
    · intro id a sig hsig
      rw [h1] at hsig ⊢
      obtain ⟨g1, se, g2⟩ := hb.sig id a sig hsig
      refine ⟨g1.mono, ?_⟩
      simp only [KV.set_apply]
      split
      · exact ⟨_, rfl⟩
      · exact ⟨se, g2⟩
  · obtain ⟨se, ws, sg, sig, w, k1, k2, k3, k4, k5, k6, k7, k8, h1, h2⟩ := submit_ok.mp h
    obtain ⟨q1, q2, q3, q4, q5⟩ := hb.sess id se k1
    have hsess : ∀ i, s'.sessions i =
        if i = id then some { se with state := nextState se ws w c.height } else s.sessions i := by
      intro i; rw [h1]; simp only [KV.set_apply, q1]
    refine ⟨?_, ?_, ?_, ?_, ?_, ?_⟩
    · intro i se' hse
      rw [hsess] at hse
      have hctr : s'.counter = s.counter := by rw [h1]
      rw [hctr]
      split at hse
      · rename_i heq
        subst heq
        simp only [Option.some.injEq] at hse
        subst hse
        exact ⟨q1, q2, q3, q4.mono, q5⟩
      · obtain ⟨g1, g2, g3, g4, g5⟩ := hb.sess i se' hse
        exact ⟨g1, g2, g3, g4.mono, g5⟩
    · intro i hi1 hi2
      rw [hsess]
      have hctr : s'.counter = s.counter := by rw [h1]
      rw [hctr] at hi2
      split
      · simp
      · exact hb.all i hi1 hi2
    · intro i se' hse
      rw [hsess] at hse
      have hws : s'.workerSets = s.workerSets := by rw [h1]
      rw [hws]
      split at hse
      · simp only [Option.some.injEq] at hse
        subst hse
        exact ⟨ws, k2⟩
      · exact hb.set i se' hse
    · intro wid' ws' hws
      rw [h1] at hws
      obtain ⟨g1, g2, g3⟩ := hb.sets wid' ws' hws
      exact ⟨g1, g2.mono, g3⟩
    · intro i
      rw [h1]
      simp only [addSig]
      split
      · exact OMap.sorted_set (hb.sorted id) _ _
      · exact hb.sorted i
    · intro i a' sig' hsig
      rw [hsess]
      rw [h1] at hsig
      simp only [addSig] at hsig
      by_cases hi : i = id
      · subst hi
        rw [if_pos rfl, OMap.get?_set] at hsig
        rw [if_pos rfl]
        refine ⟨?_, ⟨_, rfl⟩⟩
        split at hsig
        · rename_i ha
          simp only [Option.some.injEq] at hsig
          subst hsig
          exact ⟨_, List.mem_append_right _ (List.mem_singleton.mpr rfl), ha.symm,
            by rw [k5]; exact hm⟩
        · exact (hb.sig i a' sig' hsig).1.mono
      · rw [if_neg hi] at hsig
        rw [if_neg hi]
        exact ⟨(hb.sig i a' sig' hsig).1.mono, (hb.sig i a' sig' hsig).2⟩
  · rw [h1]
    refine ⟨?_, hb.all, ?_, ?_, hb.sorted, ?_⟩
    · intro id se hse
      obtain ⟨g1, g2, g3, g4, g5⟩ := hb.sess id se hse
      exact ⟨g1, g2, g3, g4.mono, g5⟩
    · intro id se hse
      simp only [KV.set_apply]
      split
      · exact ⟨ws, rfl⟩
      · exact hb.set id se hse
    · intro wid' ws' hws
      simp only [KV.set_apply] at hws
      split at hws
      · rename_i heq
        simp only [Option.some.injEq] at hws
        subst hws
        exact ⟨heq.symm, ⟨_, List.mem_append_right _ (List.mem_singleton.mpr rfl), raw, hm, hd⟩,
          decode_sorted hd⟩
      · obtain ⟨g1, g2, g3⟩ := hb.sets wid' ws' hws
        exact ⟨g1, g2.mono, g3⟩
    · intro id a sig hsig
      exact ⟨(hb.sig id a sig hsig).1.mono, (hb.sig id a sig hsig).2⟩
  all_goals
    rw [h1]
    refine ⟨?_, hb.all, hb.set, ?_, hb.sorted, ?_⟩
    · intro id se hse
      obtain ⟨g1, g2, g3, g4, g5⟩ := hb.sess id se hse
      exact ⟨g1, g2, g3, g4.mono, g5⟩
    · intro wid' ws' hws
      obtain ⟨g1, g2, g3⟩ := hb.sets wid' ws' hws
      exact ⟨g1, g2.mono, g3⟩
    · intro id a sig hsig
      exact ⟨(hb.sig id a sig hsig).1.mono, (hb.sig id a sig hsig).2⟩

theorem inv_step {log : List (Step State Call Resp)} {s s' : State} {c : Call} {r : Resp}
    (hb : Base idOf log s) (hi : Inv C s) (hx : exec C idOf s c = .ok (s', r))
    (hnc : NoCollision idOf (log ++ [⟨s, c, r, s'⟩])) : Inv C s' := by
  rcases exec_ok hx with ⟨wid, msg, chain, ok, hm, h⟩ | ⟨id, b, hm, h⟩ | ⟨raw, ws, hm, hd, h1, h2⟩ |
    ⟨kt, b, k, hm, hk, h1, h2⟩ | ⟨a, hm, hg, h1, h2⟩ | ⟨a, hm, hg, h1, h2⟩
  · obtain ⟨_, _, hl, hc, ws, hw, h1, h2⟩ := start_ok.mp h
    -- the new session has no signatures
    have hnil : s.signatures (s.counter + 1) = [] := by
      cases hs : s.signatures (s.counter + 1) with
      | nil => rfl
      | cons e t =>
        have hso := hb.sorted (s.counter + 1)
        obtain ⟨k, v⟩ := e
        have : (s.signatures (s.counter + 1)).get? k = some v := by rw [hs, OMap.get?_cons, if_pos rfl]
        obtain ⟨_, se, hse⟩ := hb.sig _ _ _ this
        obtain ⟨_, _, g3, _⟩ := hb.sess _ _ hse
        omega
    have hsg : s'.signatures = s.signatures := by rw [h1]
    have hws : s'.workerSets = s.workerSets := by rw [h1]
    have hrw : ∀ i ws', recordedWeight s' i ws' = recordedWeight s i ws' := by
      intro i ws'; unfold recordedWeight; rw [hsg]
    have hse : ∀ i se', s'.sessions i = some se' → (i = s.counter + 1 ∧ se'.state = .pending) ∨
        s.sessions i = some se' := by
      intro i se' h'
      rw [h1] at h'
      simp only [KV.set_apply] at h'
      split at h'
      · rename_i he
        simp only [Option.some.injEq] at h'
        subst h'
        exact Or.inl ⟨he, rfl⟩
      · exact Or.inr h'
    refine ⟨?_, ?_, ?_, ?_⟩
    · intro i a sig se' ws' g1 g2 g3
      rw [hsg] at g1
      rw [hws] at g3
      rcases hse i se' g2 with ⟨rfl, _⟩ | g2
      · rw [hnil] at g1; simp at g1
      · exact hi.sig i a sig se' ws' g1 g2 g3
    · intro i se' ws' g2 g3
      rw [hsg, hrw]
      rw [hws] at g3
      rcases hse i se' g2 with ⟨rfl, _⟩ | g2
      · rw [hnil, recordedWeight_nil hnil]; rfl
      · exact hi.weight i se' ws' g2 g3
    · intro i se' ws' g2 g3 g4
      rw [hsg, hrw]
      rw [hws] at g3
      rcases hse i se' g2 with ⟨rfl, _⟩ | g2
      · exact Or.inr hnil
      · exact hi.pending i se' ws' g2 g3 g4
    · intro i se' ws' h' g2 g3 g4
      rw [hrw]
      rw [hws] at g3
      rcases hse i se' g2 with ⟨_, g5⟩ | g2
      · rw [g5] at g4; simp at g4
      · exact hi.completed i se' ws' h' g2 g3 g4
  · obtain ⟨se, ws, sg, sig, w, k1, k2, k3, k4, k5, k6, k7, k8, h1, h2⟩ := submit_ok.mp h
    obtain ⟨q1, q2, q3, q4, q5⟩ := hb.sess id se k1
    obtain ⟨_, _, hso⟩ := hb.sets _ _ k2
    obtain ⟨_, hw, _⟩ := signersWeight_ok.mp k8
    have hsess : ∀ i, s'.sessions i =
        if i = id then some { se with state := nextState se ws w c.height } else s.sessions i := by
      intro i; rw [h1]; simp only [KV.set_apply, q1]
    have hsg : ∀ i, s'.signatures i =
        if i = id then (s.signatures id).set c.sender sig else s.signatures i := by
      intro i; rw [h1]; rfl
    have hws : s'.workerSets = s.workerSets := by rw [h1]
    have hrw : recordedWeight s' id ws = w := by
      rw [hw, OMap.sumBy_set_none _ _ k7, hi.weight id se ws k1 k2]
      unfold recordedWeight
      rw [hsg, if_pos rfl]
      refine (sum_update hso k3 k7).trans ?_
      have hwt : weightOf ws c.sender = sg.weight := by simp only [weightOf, k3]
      rw [hwt]
      rfl
    have hrw' : ∀ i, i ≠ id → ∀ ws', recordedWeight s' i ws' = recordedWeight s i ws' := by
      intro i hne ws'; unfold recordedWeight; rw [hsg, if_neg hne]
    refine ⟨?_, ?_, ?_, ?_⟩
    · intro i a' sig' se' ws' g1 g2 g3
      rw [hws] at g3
      rw [hsess] at g2
      rw [hsg] at g1
      by_cases hid : i = id
      · subst hid
        rw [if_pos rfl] at g1 g2
        simp only [Option.some.injEq] at g2
        subst g2
        simp only at g3 ⊢
        rw [k2] at g3
        simp only [Option.some.injEq] at g3
        subst g3
        rw [OMap.get?_set] at g1
        split at g1
        · rename_i ha
          simp only [Option.some.injEq] at g1
          subst g1
          subst ha
          exact ⟨sg, k3, k4⟩
        · exact hi.sig i a' sig' se ws g1 k1 k2
      · rw [if_neg hid] at g1 g2
        exact hi.sig i a' sig' se' ws' g1 g2 g3
    · intro i se' ws' g2 g3
      rw [hws] at g3
      rw [hsess] at g2
      rw [hsg]
      by_cases hid : i = id
      · subst hid
        rw [if_pos rfl] at g2 ⊢
        simp only [Option.some.injEq] at g2
        subst g2
        simp only at g3
        rw [k2] at g3
        simp only [Option.some.injEq] at g3
        subst g3
        rw [hrw, hw]
      · rw [if_neg hid] at g2 ⊢
        rw [hrw' i hid]
        exact hi.weight i se' ws' g2 g3
    · intro i se' ws' g2 g3 g4
      rw [hws] at g3
      rw [hsess] at g2
      by_cases hid : i = id
      · subst hid
        rw [if_pos rfl] at g2
        simp only [Option.some.injEq] at g2
        subst g2
        simp only at g3 g4
        rw [k2] at g3
        simp only [Option.some.injEq] at g3
        subst g3
        rw [hrw]
        left
        unfold nextState at g4
        split at g4
        · simp at g4
        · rename_i hn
          by_contra hlt
          exact hn ⟨g4, Nat.le_of_not_lt hlt⟩
      · rw [if_neg hid] at g2
        rw [hrw' i hid, hsg, if_neg hid]
        exact hi.pending i se' ws' g2 g3 g4
    · intro i se' ws' h' g2 g3 g4
      rw [hws] at g3
      rw [hsess] at g2
      by_cases hid : i = id
      · subst hid
        rw [if_pos rfl] at g2
        simp only [Option.some.injEq] at g2
        subst g2
        simp only at g3 g4
        rw [k2] at g3
        simp only [Option.some.injEq] at g3
        subst g3
        rw [hrw]
        unfold nextState at g4
        split at g4
        · rename_i hn; exact hn.2
        · have := hi.completed i se ws h' k1 k2 g4
          rw [hw, OMap.sumBy_set_none _ _ k7, hi.weight i se ws k1 k2]
          omega
      · rw [if_neg hid] at g2
        rw [hrw' i hid]
        exact hi.completed i se' ws' h' g2 g3 g4
  · -- a registration does not change any stored set
    have hsame : ∀ wid, s.workerSets wid ≠ none → s'.workerSets wid = s.workerSets wid := by
      intro wid hne
      rw [h1]
      simp only [KV.set_apply]
      split
      · rename_i heq
        cases ho : s.workerSets wid with
        | none => exact absurd ho hne
        | some ws0 =>
          obtain ⟨g1, g2, _⟩ := hb.sets wid ws0 ho
          congr 1
          refine hnc ws ws0 ⟨_, List.mem_append_right _ (List.mem_singleton.mpr rfl), raw, hm, hd⟩
            g2.mono ?_
          rw [g1, heq]
      · rfl
    have hback : ∀ i se' ws', s.sessions i = some se' → s'.workerSets se'.workerSetId = some ws' →
        s.workerSets se'.workerSetId = some ws' := by
      intro i se' ws' g1 g2
      obtain ⟨ws0, g3⟩ := hb.set i se' g1
      rw [hsame _ (by rw [g3]; simp)] at g2
      exact g2
    have hsg : s'.signatures = s.signatures := by rw [h1]
    have hss : s'.sessions = s.sessions := by rw [h1]
    have hrw : ∀ i ws', recordedWeight s' i ws' = recordedWeight s i ws' := by
      intro i ws'; unfold recordedWeight; rw [hsg]
    refine ⟨?_, ?_, ?_, ?_⟩
    · intro i a sig se' ws' g1 g2 g3
      rw [hsg] at g1; rw [hss] at g2
      exact hi.sig i a sig se' ws' g1 g2 (hback i se' ws' g2 g3)
    · intro i se' ws' g2 g3
      rw [hss] at g2
      rw [hsg, hrw]
      exact hi.weight i se' ws' g2 (hback i se' ws' g2 g3)
    · intro i se' ws' g2 g3 g4
      rw [hss] at g2
      rw [hsg, hrw]
      exact hi.pending i se' ws' g2 (hback i se' ws' g2 g3) g4
    · intro i se' ws' h' g2 g3 g4
      rw [hss] at g2
      rw [hrw]
      exact hi.completed i se' ws' h' g2 (hback i se' ws' g2 g3) g4
  all_goals
    rw [h1]
    exact ⟨hi.sig, hi.weight, hi.pending, hi.completed⟩

theorem invariants (C : Crypto) (idOf : WorkerSet → Str) (cfg : Config) (cs : List Call) :
    Base idOf (trace C idOf cfg cs) (stateAfter C idOf cfg cs) ∧
    (NoCollision idOf (trace C idOf cfg cs) → Inv C (stateAfter C idOf cfg cs)) := by
  refine steps_inv (exec C idOf) (P := fun log s => Base idOf log s ∧
    (NoCollision idOf log → Inv C s)) (init cfg) ⟨base_init cfg, fun _ => inv_init cfg⟩ ?_ cs
  rintro log s c s' r ⟨hb, hi⟩ hx
  exact ⟨base_step hb hx, fun hnc => inv_step hb (hi hnc.mono) hx hnc⟩

end Amp.Multisig
