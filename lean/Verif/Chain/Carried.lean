import Verif.Chain.RecordLemmas

/-!
# Messages that get onto the chain
-/

namespace Amp.Chain

variable {P : Params} {setup : Setup}

/-! ### Specification -/

/-- The chain gets a message of `a` to the contract at `k`: after the transactions `txs` comes one by `a` that has it as
its only message (and gas for two deliveries), or that has it among others and succeeds. -/
structure Gets (P : Params) (setup : Setup) (txs : List Tx) (tx : Tx) (a k : Addr) (msg : Msg) : Prop where
  sender : tx.sender = a
  outside : setup a = none
  message : ∃ funds, (tx.msgs = [(k, funds, msg)] ∧ 2 ≤ tx.gas) ∨
    ((k, funds, msg) ∈ tx.msgs ∧ ∃ x, exec P (worldAfter P setup txs) tx = .ok x)

/-- the chain gets the message with one of the transactions `txs₂`, which come after `txs₁`, in a block before the given
height -/
def GotBefore (P : Params) (setup : Setup) (txs₁ txs₂ : List Tx) (a k : Addr) (msg : Msg) (height : Nat) : Prop :=
  ∃ u tx v, txs₂ = u ++ tx :: v ∧ Gets P setup (txs₁ ++ u) tx a k msg ∧ tx.block.height < height

/-- the same, at any height -/
def Got (P : Params) (setup : Setup) (txs₁ txs₂ : List Tx) (a k : Addr) (msg : Msg) : Prop :=
  ∃ u tx v, txs₂ = u ++ tx :: v ∧ Gets P setup (txs₁ ++ u) tx a k msg

/-! ### Lemmas -/

theorem got_snoc {t₁ t₂ : List Tx} {tx : Tx} {a k : Addr} {msg : Msg}
    (h : Got P setup t₁ (t₂ ++ [tx]) a k msg) :
    Got P setup t₁ t₂ a k msg ∨ Gets P setup (t₁ ++ t₂) tx a k msg := by
  obtain ⟨u, tx', v, h1, h2⟩ := h
  rcases List.eq_nil_or_concat v with rfl | ⟨v', y, rfl⟩
  · obtain ⟨rfl, h3⟩ := List.append_inj' h1 rfl
    simp only [List.cons.injEq, and_true] at h3
    subst h3
    exact Or.inr h2
  · left
    rw [List.concat_eq_append, ← List.cons_append, ← List.append_assoc] at h1
    obtain ⟨rfl, _⟩ := List.append_inj' h1 rfl
    exact ⟨u, tx', v', rfl, h2⟩

theorem gotBefore_snoc {t₁ t₂ : List Tx} {tx : Tx} {a k : Addr} {msg : Msg} {n : Nat}
    (h : GotBefore P setup t₁ (t₂ ++ [tx]) a k msg n) :
    GotBefore P setup t₁ t₂ a k msg n ∨ (Gets P setup (t₁ ++ t₂) tx a k msg ∧ tx.block.height < n) := by
  obtain ⟨u, tx', v, h1, h2⟩ := h
  rcases List.eq_nil_or_concat v with rfl | ⟨v', y, rfl⟩
  · obtain ⟨rfl, h3⟩ := List.append_inj' h1 rfl
    simp only [List.cons.injEq, and_true] at h3
    subst h3
    exact Or.inr h2
  · left
    rw [List.concat_eq_append, ← List.cons_append, ← List.append_assoc] at h1
    obtain ⟨rfl, _⟩ := List.append_inj' h1 rfl
    exact ⟨u, tx', v', rfl, h2⟩

theorem deliver_own {b : Block} {w w' : World} {p : Pending} {es : List Entry} {out : List Pending}
    (h : deliver P b w p = .ok (w', es, out)) :
    (∃ e ∈ es, e.p = p) ∧ ∀ a, (w a).isSome → (w' a).isSome := by
  have hset : ∀ (w : World) (k : Addr) (x : Store) (a : Addr), (w a).isSome → ((w.set k x) a).isSome := by
    intro w k x a ha
    by_cases hk : a = k
    · subst hk; simp
    · rw [KV.set_ne _ _ hk]; exact ha
  unfold deliver at h
  split at h
  · split at h
    · split at h
      · simp at h
      · simp only at h
        split at h
        · split at h
          · simp at h
          · simp only [Except.ok.injEq, Prod.mk.injEq] at h
            obtain ⟨rfl, rfl, _⟩ := h
            exact ⟨⟨_, List.mem_cons_self .., rfl⟩, fun a ha => hset _ _ _ a (hset _ _ _ a ha)⟩
        · simp at h
    · simp at h
  · split at h
    · simp at h
    · simp only [Except.ok.injEq, Prod.mk.injEq] at h
      obtain ⟨rfl, rfl, _⟩ := h
      exact ⟨⟨_, List.mem_cons_self .., rfl⟩, fun a ha => hset _ _ _ a ha⟩

/-- a transaction that succeeds delivers all its messages to contracts -/
theorem run_delivers {b : Block} {accepts : Addr → Bool} (n : Nat) :
    ∀ {w w' : World} {ps : List Pending} {es : List Entry}, run P b accepts n w ps = .ok (w', es) →
      ∀ p ∈ ps, (w p.target).isSome → ∃ e ∈ es, e.p = p := by
  induction n with
  | zero =>
    intro w w' ps es h
    cases ps with
    | nil => simp
    | cons p t => simp [run] at h
  | succ n ih =>
    intro w w' ps es h
    cases ps with
    | nil => simp
    | cons p t =>
      rw [run] at h
      split at h
      · rename_i hnone
        intro q hq hs
        rcases List.mem_cons.mp hq with rfl | hq
        · rw [Option.isNone_iff_eq_none] at hnone
          rw [hnone.1] at hs; simp at hs
        · exact ih h q hq hs
      · cases hd : deliver P b w p with
        | error e => rw [hd] at h; simp at h
        | ok y =>
          obtain ⟨w1, es1, out⟩ := y
          rw [hd] at h
          simp only at h
          cases hr : run P b accepts n w1 (out ++ t) with
          | error e => rw [hr] at h; simp at h
          | ok z =>
            obtain ⟨w2, es2⟩ := z
            rw [hr] at h
            simp only [Except.ok.injEq, Prod.mk.injEq] at h
            obtain ⟨rfl, rfl⟩ := h
            obtain ⟨⟨e, he, hep⟩, hsome⟩ := deliver_own hd
            intro q hq hs
            rcases List.mem_cons.mp hq with rfl | hq
            · exact ⟨e, List.mem_append_left _ he, hep⟩
            · obtain ⟨e', he', hq'⟩ := ih hr q (List.mem_append_right _ hq) (hsome _ hs)
              exact ⟨e', List.mem_append_right _ he', hq'⟩

/-- the entry of a message of a transaction that succeeds -/
theorem gets_entry {txs : List Tx} {tx : Tx} {a k : Addr} {msg : Msg} (h : Gets P setup txs tx a k msg)
    (hk : setup k ≠ none) {w' : World} {es : List Entry} (hx : exec P (worldAfter P setup txs) tx = .ok (w', es)) :
    ∃ e ∈ es, e.p.target = k ∧ e.p.sender = a ∧ e.p.msg = msg := by
  obtain ⟨funds, hm⟩ := h.message
  have hmem : (k, funds, msg) ∈ tx.msgs := by
    rcases hm with ⟨h1, _⟩ | ⟨h1, _⟩
    · rw [h1]; exact List.mem_cons_self ..
    · exact h1
  unfold exec at hx
  split at hx
  · simp at hx
  · obtain ⟨e, he, hep⟩ := run_delivers _ hx ⟨tx.sender, k, funds, msg⟩
      (List.mem_map.mpr ⟨_, hmem, rfl⟩) (by
        rw [(inv P setup txs).world]
        unfold worldOf
        cases hs : setup k with
        | none => exact absurd hs hk
        | some x => simp)
    exact ⟨e, he, by rw [hep], by rw [hep]; exact h.sender, by rw [hep]⟩

end Amp.Chain
