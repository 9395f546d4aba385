import Verif.Chain.RecordLemmas
import Verif.Chain.TrustSpec

/-!
# Helper lemmas for C113: where a delivered message comes from
-/

namespace Amp.Chain

variable {P : Params}

theorem deliver_origin {b : Block} {w w' : World} {p : Pending} {es : List Entry} {out : List Pending}
    (h : deliver P b w p = .ok (w', es, out)) :
    (∀ e ∈ es, e.p = p ∨ ∃ e' : Entry, e.p ∈ e'.sent) ∧ ∀ q ∈ out, ∃ e' : Entry, q ∈ e'.sent := by
  unfold deliver at h
  split at h
  · rename_i s sv kt hw
    split at h
    · rename_i m hm
      split at h
      · simp at h
      · rename_i s1 o hh
        simp only at h
        split at h
        · rename_i ms mc mr hq
          split at h
          · simp at h
          · rename_i s2 a hc
            simp only [Except.ok.injEq, Prod.mk.injEq] at h
            obtain ⟨_, rfl, rfl⟩ := h
            refine ⟨?_, fun q hq => ⟨_, hq⟩⟩
            intro e he
            simp only [List.mem_cons, List.not_mem_nil, or_false] at he
            rcases he with rfl | rfl
            · exact Or.inl rfl
            · exact Or.inr ⟨_, call_prover_sent hw hm hc hh⟩
        · simp at h
    · simp at h
  · split at h
    · simp at h
    · rename_i s1 a hc
      simp only [Except.ok.injEq, Prod.mk.injEq] at h
      obtain ⟨_, rfl, rfl⟩ := h
      refine ⟨?_, fun q hq => ⟨_, hq⟩⟩
      intro e he
      simp only [List.mem_cons, List.not_mem_nil, or_false] at he
      subst he
      exact Or.inl rfl

theorem run_origin {b : Block} {accepts : Addr → Bool} (n : Nat) :
    ∀ {w w' : World} {ps : List Pending} {es : List Entry}, run P b accepts n w ps = .ok (w', es) →
      ∀ e ∈ es, e.p ∈ ps ∨ ∃ e' : Entry, e.p ∈ e'.sent := by
  induction n with
  | zero =>
    intro w w' ps es h
    cases ps with
    | nil => simp only [run, Except.ok.injEq, Prod.mk.injEq] at h; rw [← h.2]; simp
    | cons p t => simp [run] at h
  | succ n ih =>
    intro w w' ps es h
    cases ps with
    | nil => simp only [run, Except.ok.injEq, Prod.mk.injEq] at h; rw [← h.2]; simp
    | cons p t =>
      rw [run] at h
      split at h
      · intro e he
        exact (ih h e he).imp_left (List.mem_cons_of_mem _)
      · cases hd : deliver P b w p with
        | error e => rw [hd] at h; simp at h
        | ok y =>
          obtain ⟨w1, es1, out⟩ := y
          rw [hd] at h
          simp only at h
          cases hr : run P b accepts n w1 (out ++ t) with
          | error e => rw [hr] at h; simp at h
          | ok z =>
            obtain ⟨w2, es2⟩ := z
            rw [hr] at h
            simp only [Except.ok.injEq, Prod.mk.injEq] at h
            obtain ⟨rfl, rfl⟩ := h
            obtain ⟨d1, d2⟩ := deliver_origin hd
            intro e he
            rcases List.mem_append.mp he with he | he
            · rcases d1 e he with h | h
              · exact Or.inl (by rw [h]; exact List.mem_cons_self ..)
              · exact Or.inr h
            · rcases ih hr e he with h | h
              · rcases List.mem_append.mp h with h | h
                · exact Or.inr (d2 _ h)
                · exact Or.inl (List.mem_cons_of_mem _ h)
              · exact Or.inr h

/-- a delivered message is one of a transaction, or some call sent it -/
theorem log_origin (P : Params) (setup : Setup) (txs : List Tx) :
    ∀ e ∈ log P setup txs, (∃ tx ∈ txs, ∃ m ∈ tx.msgs, e.p = ⟨tx.sender, m.1, m.2.1, m.2.2⟩) ∨
      ∃ e' : Entry, e.p ∈ e'.sent := by
  induction txs using List.reverseRecOn with
  | nil => intro e he; simp [log, outs] at he
  | append_singleton t tx ih =>
    intro e he
    cases hx : exec P (worldAfter P setup t) tx with
    | error x =>
      rw [(log_snoc_error (fun y => by rw [hx]; simp)).1] at he
      rcases ih e he with ⟨y, hy, h⟩ | h
      · exact Or.inl ⟨y, List.mem_append_left _ hy, h⟩
      · exact Or.inr h
    | ok y =>
      obtain ⟨w', es⟩ := y
      rw [(log_snoc hx).2] at he
      rcases List.mem_append.mp he with he | he
      · rcases ih e he with ⟨y, hy, h⟩ | h
        · exact Or.inl ⟨y, List.mem_append_left _ hy, h⟩
        · exact Or.inr h
      · unfold exec at hx
        split at hx
        · simp at hx
        · rcases run_origin _ hx e he with h | h
          · obtain ⟨m, hm, h⟩ := List.mem_map.mp h
            exact Or.inl ⟨tx, by simp, m, hm, h.symm⟩
          · exact Or.inr h

/-- contracts do not vote -/
theorem outs_not_vote (x : Act) : ∀ o ∈ x.outs, ∀ id votes, o.2 ≠ .verifier (.vote id votes) := by
  intro o ho id votes
  cases x with
  | verifier c r | router c r | nexus c r | multisig c r =>
    obtain ⟨y, _, rfl⟩ := List.mem_map.mp ho; simp
  | gateway c r =>
    obtain ⟨y, _, rfl⟩ := List.mem_map.mp ho
    cases y <;> simp
  | registry c r | rewards c r => simp [Act.outs] at ho
  | prover a c r =>
    simp only [Act.outs, List.mem_singleton] at ho
    subst ho; simp

/-- a delivered vote is a message of a transaction -/
theorem vote_origin {setup : Setup} {txs : List Tx} {e : Entry} (he : e ∈ log P setup txs) {id : Nat} {votes : List Std.Vote}
    (hm : e.p.msg = .verifier (.vote id votes)) :
    ∃ tx ∈ txs, ∃ m ∈ tx.msgs, e.p = ⟨tx.sender, m.1, m.2.1, m.2.2⟩ := by
  rcases log_origin P setup txs e he with h | ⟨e', h⟩
  · exact h
  · obtain ⟨o, ho, hp⟩ := List.mem_map.mp h
    rw [← hp] at hm
    exact absurd hm (outs_not_vote e'.act o ho id votes)

theorem mem_verifierLog {V : Addr} {l : List Entry} {x : VV.Call × VV.Resp} :
    x ∈ verifierLog V l ↔ ∃ e ∈ l, e.p.target = V ∧ e.act = .verifier x.1 x.2 := by
  unfold verifierLog
  constructor
  · intro h
    obtain ⟨a, ha, hx⟩ := List.mem_filterMap.mp h
    obtain ⟨e, he, ht, rfl⟩ := mem_actsAt ha
    refine ⟨e, he, ht, ?_⟩
    cases hact : e.act with
    | verifier c r => rw [hact] at hx; simp only [Option.some.injEq] at hx; subst hx; rfl
    | _ => rw [hact] at hx; simp at hx
  · rintro ⟨e, he, rfl, h⟩
    exact List.mem_filterMap.mpr ⟨e.act, actsAt_mem he, by rw [h]⟩

end Amp.Chain
