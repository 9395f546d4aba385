import Verif.Prover.Lemmas
import Verif.Prover.Spec
import Verif.Std.Props
import Mathlib.Data.List.Induction
import Verif.Encoding.AbiProps
import Verif.Encoding.BcsProps

/-! # Worker sets: helper lemmas -/

namespace Amp.Prover

open Amp.Encoding
open Amp.Multisig (Signature PublicKey Signer WorkerSet)
open Amp.Router (CCId Message ChainName)
open Amp.Registry (Worker)

variable {X : Ext}

theorem ofList_snoc {K V : Type} [LinearOrder K] (l : List (K × V)) (e : K × V) :
    OMap.ofList (l ++ [e]) = (OMap.ofList l).set e.1 e.2 := by
  simp [OMap.ofList, List.foldl_append]

theorem mem_of_mem_ofList {K V : Type} [LinearOrder K] (l : List (K × V)) :
    ∀ {x : K × V}, x ∈ OMap.ofList l → x ∈ l := by
  induction l using List.reverseRecOn with
  | nil => intro x h; simp [OMap.ofList] at h
  | append_singleton l e ih =>
    intro x h
    rw [ofList_snoc] at h
    rcases OMap.mem_set h with h | h
    · exact List.mem_append_right _ (by simp [h])
    · exact List.mem_append_left _ (ih h)

theorem ofList_sorted {K V : Type} [LinearOrder K] (l : List (K × V)) : OMap.Sorted (OMap.ofList l) :=
  OMap.sorted_foldl_set l [] OMap.sorted_nil

theorem get?_ofList {K V : Type} [LinearOrder K] (l : List (K × V)) {k : K} :
    k ∈ l.map Prod.fst → ∃ v, (k, v) ∈ l ∧ (OMap.ofList l).get? k = some v := by
  induction l using List.reverseRecOn with
  | nil => intro h; simp at h
  | append_singleton l e ih =>
    intro h
    rw [ofList_snoc, OMap.get?_set]
    by_cases hk : k = e.1
    · rw [if_pos hk]
      exact ⟨e.2, by simp [hk], rfl⟩
    · rw [if_neg hk]
      have : k ∈ l.map Prod.fst := by
        simp only [List.map_append, List.map_cons, List.map_nil, List.mem_append, List.mem_singleton] at h
        rcases h with h | h
        · exact h
        · exact absurd h hk
      obtain ⟨v, h1, h2⟩ := ih this
      exact ⟨v, List.mem_append_left _ h1, h2⟩

theorem mem_ofList {K V : Type} [LinearOrder K] {l : List (K × V)}
    (hf : ∀ e ∈ l, ∀ e' ∈ l, e.1 = e'.1 → e = e') (x : K × V) : x ∈ OMap.ofList l ↔ x ∈ l := by
  constructor
  · exact mem_of_mem_ofList l
  · intro h
    obtain ⟨v, h1, h2⟩ := get?_ofList l (List.mem_map_of_mem (f := Prod.fst) h)
    have := hf _ h1 _ h rfl
    have hm := OMap.mem_of_get? h2
    rw [this] at hm
    exact hm

theorem participants_eq {workers : List Worker} {ps : List (Addr × Nat)}
    (h : mapE participantOf workers = .ok ps) :
    ps = workers.map (fun w => (w.address, 1)) ∧ ∀ w ∈ workers, ∃ n, w.bonding = .bonded n := by
  induction workers generalizing ps with
  | nil => simp only [mapE, Except.ok.injEq] at h; subst h; simp
  | cons w t ih =>
    obtain ⟨p, r, h1, h2, rfl⟩ := mapE_cons_ok.mp h
    obtain ⟨h3, h4⟩ := ih h2
    unfold participantOf Worker.toParticipant at h1
    cases hb : w.bonding with
    | bonded n =>
      rw [hb] at h1
      simp only [Except.ok.injEq] at h1
      subst h1
      refine ⟨by rw [h3]; rfl, ?_⟩
      intro w' hw'
      rcases List.mem_cons.mp hw' with rfl | hw'
      · exact ⟨n, hb⟩
      · exact h4 w' hw'
    | requestedUnbonding n => rw [hb] at h1; simp at h1
    | unbonding n t => rw [hb] at h1; simp at h1
    | unbonded => rw [hb] at h1; simp at h1

theorem makeWorkerSet_ok {cfg : Config} {env : Env} {ws : WorkerSet} (h : makeWorkerSet cfg env = .ok ws) :
    ∃ workers keys snapshot, env.activeWorkers = .ok workers ∧
      (∀ w ∈ workers, ∃ n, w.bonding = .bonded n) ∧
      Std.Snapshot.new cfg.signingThreshold (workers.map (fun w => (w.address, 1))) = .ok snapshot ∧
      mapE (fun w : Worker => env.publicKey w.address) workers = .ok keys ∧
      ws = newWorkerSet ((workers.map (fun w => (w.address, 1))).zip keys) snapshot.quorum env.height := by
  unfold makeWorkerSet at h
  cases ha : env.activeWorkers with
  | error e => rw [ha] at h; simp at h
  | ok workers =>
  rw [ha] at h
  simp only at h
  cases hp : mapE participantOf workers with
  | error e => rw [hp] at h; simp at h
  | ok ps =>
  rw [hp] at h
  simp only at h
  obtain ⟨rfl, hb⟩ := participants_eq hp
  cases hsn : Std.Snapshot.new cfg.signingThreshold (workers.map (fun w => (w.address, 1))) with
  | error e => rw [hsn] at h; cases e <;> simp at h
  | ok sn =>
  rw [hsn] at h
  simp only at h
  cases hk : mapE (fun w : Worker => env.publicKey w.address) workers with
  | error e => rw [hk] at h; simp at h
  | ok keys =>
  rw [hk] at h
  simp only [Except.ok.injEq] at h
  exact ⟨workers, keys, sn, rfl, hb, hsn, hk, h.symm⟩

/-- the entries of the map of signers -/
theorem entries_mem {env : Env} {workers : List Worker} {keys : List PublicKey}
    (hk : mapE (fun w : Worker => env.publicKey w.address) workers = .ok keys) (x : Addr × Signer) :
    x ∈ ((workers.map (fun w => (w.address, 1))).zip keys).map
        (fun p => (p.1.1, (⟨p.1.1, p.1.2, p.2⟩ : Signer))) ↔
      (∃ w ∈ workers, w.address = x.1) ∧ x.2.address = x.1 ∧ x.2.weight = 1 ∧
        env.publicKey x.1 = .ok x.2.pubKey := by
  induction workers generalizing keys with
  | nil =>
    simp only [mapE, Except.ok.injEq] at hk
    subst hk
    simp
  | cons w t ih =>
    obtain ⟨k, r, h1, h2, rfl⟩ := mapE_cons_ok.mp hk
    have ih := ih h2
    simp only [List.map_cons, List.zip_cons_cons, List.mem_cons]
    rw [ih]
    constructor
    · rintro (rfl | ⟨⟨w', hw', h3⟩, h4⟩)
      · exact ⟨⟨w, Or.inl rfl, rfl⟩, rfl, rfl, h1⟩
      · exact ⟨⟨w', Or.inr hw', h3⟩, h4⟩
    · rintro ⟨⟨w', hw' | hw', h3⟩, h4, h5, h6⟩
      · subst hw'
        left
        obtain ⟨a, ⟨a', wt, key⟩⟩ := x
        simp only at h3 h4 h5 h6
        subst h3
        subst h4
        subst h5
        rw [h6] at h1
        simp only [Except.ok.injEq] at h1
        subst h1
        rfl
      · exact Or.inr ⟨⟨w', hw', h3⟩, h4, h5, h6⟩

theorem totalWeight_ones (workers : List Worker) :
    Std.totalWeight (workers.map (fun w => (w.address, 1))) = workers.length := by
  unfold Std.totalWeight
  rw [List.map_map]
  induction workers with
  | nil => rfl
  | cons w t ih => rw [List.map_cons, List.sum_cons, ih, List.length_cons]; simp; omega

theorem setOf_makeWorkerSet {cfg : Config} {env : Env} {ws : WorkerSet}
    (h : makeWorkerSet cfg env = .ok ws) :
    ∃ workers, env.activeWorkers = .ok workers ∧
      SetOf cfg.signingThreshold env.publicKey env.height workers ws := by
  obtain ⟨workers, keys, sn, ha, hb, hsn, hk, rfl⟩ := makeWorkerSet_ok h
  refine ⟨workers, ha, ?_, hb, ?_, ?_, ?_, rfl⟩
  · rintro rfl
    simp [Std.Snapshot.new] at hsn
  · exact OMap.keys_sorted (ofList_sorted _)
  · intro a sg
    unfold newWorkerSet
    simp only
    rw [mem_ofList]
    · exact entries_mem hk (a, sg)
    · intro e he e' he' hee
      obtain ⟨_, h1, h2, h3⟩ := (entries_mem hk e).mp he
      obtain ⟨_, h1', h2', h3'⟩ := (entries_mem hk e').mp he'
      rw [hee, h3'] at h3
      simp only [Except.ok.injEq] at h3
      obtain ⟨a, ⟨b, c, d⟩⟩ := e
      obtain ⟨a', ⟨b', c', d'⟩⟩ := e'
      simp only at *
      subst h1 h2 h1' h2' hee h3
      rfl
  · intro n d hth q
    have := (Std.C02_quorum_exact hth hsn).1 q
    simp only [newWorkerSet]
    rw [this]
    have hl := totalWeight_ones workers
    rw [hl]

/-- the map of signers is ordered and every signer is filed under their own address -/
structure SetWF (ws : WorkerSet) : Prop where
  sorted : OMap.Sorted ws.signers
  own : ∀ e ∈ ws.signers, e.2.address = e.1

theorem setWF_makeWorkerSet {cfg : Config} {env : Env} {ws : WorkerSet}
    (h : makeWorkerSet cfg env = .ok ws) : SetWF ws := by
  obtain ⟨workers, _, hs⟩ := setOf_makeWorkerSet h
  refine ⟨?_, ?_⟩
  · have := hs.sorted
    rw [List.pairwise_map] at this
    exact this
  · intro e he
    exact ((hs.signers e.1 e.2).mp he).2.1

theorem contains_iff {ws : WorkerSet} (hw : SetWF ws) {e : Addr × Signer} (he : e.2.address = e.1) :
    (ws.signers.map Prod.snd).contains e.2 = true ↔ ws.signers.get? e.1 = some e.2 := by
  rw [List.contains_iff_mem, ← OMap.mem_iff_get? hw.sorted, List.mem_map]
  constructor
  · rintro ⟨x, hx, hxe⟩
    have := hw.own x hx
    rw [hxe, he] at this
    obtain ⟨a, b⟩ := x
    simp only at hxe this
    subst hxe
    rw [this]
    exact hx
  · intro h
    exact ⟨_, h, rfl⟩

theorem missing_length {a b : WorkerSet} (ha : SetWF a) (hb : SetWF b) :
    ((a.signers.map Prod.snd).filter (fun x => ! (b.signers.map Prod.snd).contains x)).length =
      (missingFrom a b).length := by
  rw [List.filter_map, List.length_map]
  unfold missingFrom
  congr 1
  apply List.filter_congr
  intro e he
  have := contains_iff hb (ha.own e he)
  simp only [Function.comp_apply]
  by_cases h : b.signers.get? e.1 = some e.2
  · rw [this.mpr h]
    simp [h]
  · rw [Bool.eq_false_iff.mpr (fun h' => h (this.mp h'))]
    simp [h]

theorem shouldUpdate_iff {new cur : WorkerSet} (hn : SetWF new) (hc : SetWF cur) (d : Nat) :
    shouldUpdate new cur d = true ↔ d < membershipChanges new cur := by
  unfold shouldUpdate membershipChanges
  dsimp only
  rw [missing_length hn hc, missing_length hc hn, decide_eq_true_eq]

theorem isOperators_makeOperators {enc : Encoder} {ws : WorkerSet} {ops : Std.Operators}
    (h : makeOperators X enc ws = .ok ops) : IsOperators X enc ws ops := by
  cases enc with
  | abi => exact Abi.C61_operators_abi X ws ops h
  | bcs =>
    simp only [makeOperators, Except.ok.injEq] at h
    subst h
    obtain ⟨h1, h2, h3⟩ := Bcs.C61_operators_bcs ws
    refine ⟨h1, h2, ?_⟩
    have := h3.map (fun o => ((Except.ok o.1 : Except Err Bytes), o.2))
    rw [List.map_map] at this
    exact this

/-! ### Batches -/

theorem isTransfer_make {enc : Encoder} {ws : WorkerSet} {c : Command}
    (h : makeTransfer X enc ws = .ok c) : IsTransfer X enc ws c := by
  unfold makeTransfer at h
  cases enc with
  | abi =>
    simp only at h
    cases hp : Abi.transferOperatorshipParams X ws with
    | error e => rw [hp] at h; simp at h
    | ok p => rw [hp] at h; simp only [Except.ok.injEq] at h; subst h; exact ⟨rfl, rfl, hp⟩
  | bcs =>
    simp only at h
    cases hp : Bcs.transferOperatorshipParams ws with
    | error e => rw [hp] at h; simp at h
    | ok p => rw [hp] at h; simp only [Except.ok.injEq] at h; subst h; exact ⟨rfl, rfl, hp⟩

theorem isApproval_make {enc : Encoder} {m : Message} {c : Command}
    (h : makeCommand X enc m = .ok c) : IsApproval X enc m c := by
  unfold makeCommand at h
  cases enc with
  | abi =>
    simp only at h
    cases hp : Abi.commandParams X m.ccId.chain m.sourceAddress m.destinationAddress m.payloadHash with
    | error e => rw [hp] at h; simp at h
    | ok p => rw [hp] at h; simp only [Except.ok.injEq] at h; subst h; exact ⟨rfl, rfl, hp⟩
  | bcs =>
    simp only at h
    cases hp : Bcs.commandParams m.ccId.chain m.sourceAddress m.destinationAddress m.payloadHash with
    | error e => rw [hp] at h; simp at h
    | ok p => rw [hp] at h; simp only [Except.ok.injEq] at h; subst h; exact ⟨rfl, rfl, hp⟩

theorem approvals_make {enc : Encoder} {msgs : List Message} {cs : List Command}
    (h : mapE (makeCommand X enc) msgs = .ok cs) : List.Forall₂ (IsApproval X enc) msgs cs := by
  induction msgs generalizing cs with
  | nil => simp only [mapE, Except.ok.injEq] at h; subst h; exact .nil
  | cons m t ih =>
    obtain ⟨c, r, h1, h2, rfl⟩ := mapE_cons_ok.mp h
    exact .cons (isApproval_make h1) (ih h2)

theorem isBatch_build {cfg : Config} {ws : Option WorkerSet} {msgs : List Message} {b : Batch}
    (h : buildBatch X cfg ws msgs = .ok b) :
    IsBatch X cfg ws msgs b ∧ b.id = batchId X (msgs.map (·.ccId)) ws := by
  unfold buildBatch at h
  cases ws with
  | none =>
    simp only at h
    cases hm : mapE (makeCommand X cfg.encoder) msgs with
    | error e => rw [hm] at h; simp at h
    | ok cs =>
      rw [hm] at h
      simp only [Except.ok.injEq] at h
      subst h
      exact ⟨⟨rfl, rfl, rfl, [], cs, rfl, rfl, approvals_make hm⟩, rfl⟩
  | some w =>
    simp only at h
    cases ht : makeTransfer X cfg.encoder w with
    | error e => rw [ht] at h; simp at h
    | ok t =>
      rw [ht] at h
      simp only at h
      cases hm : mapE (makeCommand X cfg.encoder) msgs with
      | error e => rw [hm] at h; simp at h
      | ok cs =>
        rw [hm] at h
        simp only [Except.ok.injEq] at h
        subst h
        exact ⟨⟨rfl, rfl, rfl, [t], cs, rfl, ⟨t, rfl, isTransfer_make ht⟩, approvals_make hm⟩, rfl⟩

end Amp.Prover
