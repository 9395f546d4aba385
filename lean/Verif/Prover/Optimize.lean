import Verif.Prover.Example
import Verif.Encoding.Sort
import Mathlib.Data.List.Perm.Subperm

/-!
# The signatures in a proof: C55
-/

namespace Amp.Prover

open Amp.Encoding
open Amp.Multisig (Signature PublicKey Signer WorkerSet)

/-! ### Specification -/

/-- the members with a signature -/
def signed (l : List (Signer × Option Signature)) : List (Signer × Option Signature) :=
  l.filter (fun e => e.2.isSome)

/-- the weight of the members in a list -/
def weightOf (l : List (Signer × Option Signature)) : Nat := (l.map (fun e => e.1.weight)).sum

/-- the same member, with the same signature or without one -/
def KeptOrDropped (a b : Signer × Option Signature) : Prop := b.1 = a.1 ∧ (b.2 = a.2 ∨ b.2 = none)

/-! ### Helper lemmas -/

theorem signed_cons_none (s : Signer) (l : List (Signer × Option Signature)) :
    signed ((s, none) :: l) = signed l := by simp [signed]

theorem signed_cons_some (s : Signer) (x : Signature) (l : List (Signer × Option Signature)) :
    signed ((s, some x) :: l) = (s, some x) :: signed l := by simp [signed]

theorem keepUntil_ok {q : Nat} : ∀ {l r : List (Signer × Option Signature)} {acc : Nat},
    keepUntil q acc l = .ok r →
    List.Forall₂ KeptOrDropped l r ∧
    ∃ k, k ≤ (signed l).length ∧ signed r = (signed l).take k ∧
      (k = (signed l).length ∨ q ≤ acc + weightOf ((signed l).take k)) ∧
      ∀ j, j < k → acc + weightOf ((signed l).take j) < q
  | [], r, acc, h => by
    simp only [keepUntil, Except.ok.injEq] at h
    subst h
    exact ⟨.nil, 0, by simp [signed], by simp [signed], Or.inl (by simp [signed]), by simp⟩
  | (sg, none) :: t, r, acc, h => by
    unfold keepUntil at h
    simp only at h
    cases hk : keepUntil q acc t with
    | error e => rw [hk] at h; simp at h
    | ok r' =>
      rw [hk] at h
      simp only [Except.ok.injEq] at h
      subst h
      obtain ⟨h1, k, h2, h3, h4, h5⟩ := keepUntil_ok hk
      rw [signed_cons_none, signed_cons_none]
      exact ⟨.cons ⟨rfl, Or.inl rfl⟩ h1, k, h2, h3, h4, h5⟩
  | (sg, some x) :: t, r, acc, h => by
    unfold keepUntil at h
    simp only at h
    rw [signed_cons_some]
    by_cases hq : acc < q
    · rw [if_pos hq] at h
      by_cases ho : acc + sg.weight > u256Max
      · rw [if_pos ho] at h; simp at h
      · rw [if_neg ho] at h
        cases hk : keepUntil q (acc + sg.weight) t with
        | error e => rw [hk] at h; simp at h
        | ok r' =>
          rw [hk] at h
          simp only [Except.ok.injEq] at h
          subst h
          obtain ⟨h1, k, h2, h3, h4, h5⟩ := keepUntil_ok hk
          refine ⟨.cons ⟨rfl, Or.inl rfl⟩ h1, k + 1, by simpa using h2, ?_, ?_, ?_⟩
          · rw [signed_cons_some, List.take_succ_cons, h3]
          · rcases h4 with h4 | h4
            · left; simp [h4]
            · right
              rw [List.take_succ_cons]
              simp only [weightOf, List.map_cons, List.sum_cons] at h4 ⊢
              omega
          · intro j hj
            cases j with
            | zero => simpa [weightOf] using hq
            | succ j =>
              have := h5 j (by omega)
              rw [List.take_succ_cons]
              simp only [weightOf, List.map_cons, List.sum_cons] at this ⊢
              omega
    · rw [if_neg hq] at h
      cases hk : keepUntil q acc t with
      | error e => rw [hk] at h; simp at h
      | ok r' =>
        rw [hk] at h
        simp only [Except.ok.injEq] at h
        subst h
        obtain ⟨h1, k, h2, h3, h4, h5⟩ := keepUntil_ok hk
        have hk0 : k = 0 := by
          by_contra hne
          have := h5 0 (by omega)
          simp [weightOf] at this
          omega
        subst hk0
        refine ⟨.cons ⟨rfl, Or.inr rfl⟩ h1, 0, by simp, ?_, ?_, by simp⟩
        · rw [signed_cons_none, h3]; simp
        · right; simp [weightOf]; omega

theorem keepUntil_total {q : Nat} : ∀ (l : List (Signer × Option Signature)) (acc : Nat),
    acc + weightOf (signed l) ≤ u256Max → ∃ r, keepUntil q acc l = .ok r
  | [], acc, _ => ⟨[], rfl⟩
  | (sg, none) :: t, acc, h => by
    rw [signed_cons_none] at h
    obtain ⟨r, hr⟩ := keepUntil_total (q := q) t acc h
    exact ⟨(sg, none) :: r, by simp [keepUntil, hr]⟩
  | (sg, some x) :: t, acc, h => by
    rw [signed_cons_some] at h
    have hsum : weightOf ((sg, some x) :: signed t) = sg.weight + weightOf (signed t) := by
      simp [weightOf]
    rw [hsum] at h
    by_cases hq : acc < q
    · obtain ⟨r, hr⟩ := keepUntil_total (q := q) t (acc + sg.weight) (by omega)
      refine ⟨(sg, some x) :: r, ?_⟩
      unfold keepUntil
      simp only
      rw [if_pos hq, if_neg (by omega), hr]
    · obtain ⟨r, hr⟩ := keepUntil_total (q := q) t acc (by omega)
      refine ⟨(sg, none) :: r, ?_⟩
      unfold keepUntil
      simp only
      rw [if_neg hq, hr]

theorem sum_perm {a b : List Nat} (h : a.Perm b) : a.sum = b.sum := by
  induction h with
  | nil => rfl
  | cons x _ ih => simp [ih]
  | swap x y l => simp; omega
  | trans _ _ h1 h2 => exact h1.trans h2

/-- in a descending list, no sublist outweighs the prefix of the same length -/
theorem sublist_sum_le {w T : List Nat} (h : T.Sublist w) : w.Pairwise (· ≥ ·) →
    T.sum ≤ (w.take T.length).sum := by
  induction h with
  | slnil => intro _; simp
  | cons a h ih =>
    rename_i T w'
    intro hs
    have ih := ih hs.tail
    cases hT : T.length with
    | zero => rw [hT] at ih; simpa using ih
    | succ m =>
      rw [hT] at ih
      rw [List.take_succ_cons, List.sum_cons]
      rw [List.take_succ, List.sum_append] at ih
      have : (w'[m]?.toList).sum ≤ a := by
        cases hm : w'[m]? with
        | none => simp
        | some x =>
          have := List.rel_of_pairwise_cons hs (List.mem_of_getElem? hm)
          simpa using this
      omega
  | cons_cons a h ih =>
    intro hs
    have ih := ih hs.tail
    simp only [List.length_cons, List.take_succ_cons, List.sum_cons]
    omega

/-! ### C55 -/

/-- C55: the result of thinning out the signatures lists every member once, with the recorded signature or
without one; the signatures kept weigh at least the quorum if all recorded ones together do; and no choice of
recorded signatures that reaches the quorum has fewer. -/
theorem C55_fewest (l r : List (Signer × Option Signature)) (quorum : Nat)
    (h : optimizeSigners l quorum = .ok r) :
    (∃ l', l'.Perm l ∧ List.Forall₂ KeptOrDropped l' r) ∧
    (quorum ≤ weightOf (signed l) → quorum ≤ weightOf (signed r)) ∧
    (∀ S, S.Subperm (signed l) → quorum ≤ weightOf S → (signed r).length ≤ S.length) := by
  unfold optimizeSigners at h
  have hperm := sortBy_perm (fun a b : Signer × Option Signature => decide (b.1.weight ≤ a.1.weight)) l
  have hsorted : (sortBy (fun a b : Signer × Option Signature => decide (b.1.weight ≤ a.1.weight)) l).Pairwise
      (fun a b => b.1.weight ≤ a.1.weight) := by
    apply sortBy_pairwise
    · intro a b c h1 h2; omega
    · intro a b h; simpa using h
    · intro a b h; simp at h; omega
  revert h hperm hsorted
  generalize sortBy (fun a b : Signer × Option Signature => decide (b.1.weight ≤ a.1.weight)) l = L
  intro h hperm hsorted
  obtain ⟨h1, k, h2, h3, h4, h5⟩ := keepUntil_ok h
  have hsp : (signed L).Perm (signed l) := hperm.filter _
  have hsw : ((signed L).map (fun e => e.1.weight)).Pairwise (· ≥ ·) := by
    rw [List.pairwise_map]
    exact List.Pairwise.sublist List.filter_sublist hsorted
  refine ⟨⟨L, hperm, h1⟩, ?_, ?_⟩
  · intro hq
    rw [h3]
    rcases h4 with h4 | h4
    · rw [h4, List.take_length]
      have : weightOf (signed L) = weightOf (signed l) := sum_perm (hsp.map _)
      omega
    · omega
  · intro S hS hq
    rw [h3, List.length_take, Nat.min_eq_left h2]
    by_contra hlt
    push Not at hlt
    have := h5 S.length hlt
    obtain ⟨T, hT, hsub⟩ := hS.trans hsp.symm.subperm
    have hle := sublist_sum_le (hsub.map (fun e => e.1.weight)) hsw
    have hTS : (T.map (fun e => e.1.weight)).sum = weightOf S := sum_perm (hT.map _)
    rw [hTS, List.length_map, hT.length_eq, ← List.map_take] at hle
    unfold weightOf at this hq hle
    omega

/-- C55: this does not fail, unless the recorded weights add up to more than a `Uint256` holds. -/
theorem C55_total (l : List (Signer × Option Signature)) (quorum : Nat)
    (h : weightOf (signed l) ≤ u256Max) : ∃ r, optimizeSigners l quorum = .ok r := by
  unfold optimizeSigners
  apply keepUntil_total
  have hperm := sortBy_perm (fun a b : Signer × Option Signature => decide (b.1.weight ≤ a.1.weight)) l
  have : weightOf (signed (sortBy (fun a b : Signer × Option Signature => decide (b.1.weight ≤ a.1.weight)) l))
      = weightOf (signed l) := sum_perm ((hperm.filter _).map _)
  omega

/-- C55: a completed proof carries the execute data made with exactly the thinned out signatures of the
session, and its quorum. -/
theorem C55_proof (X : Ext) (s : State) (multisig : Nat → Option Multisig.Multisig) (sid : Nat) (p : Proof)
    (d : Bytes) (h : getProof X s multisig sid = .ok p) (hd : p.status = .completed d) :
    ∃ bid b m r, s.sessionBatch sid = some bid ∧ s.batches bid = some b ∧ multisig sid = some m ∧
      optimizeSigners m.signers m.quorum = .ok r ∧ b.executeData X m.quorum r = .ok d ∧
      (∃ at', m.state = .completed at') := by
  unfold getProof at h
  cases hs : s.sessionBatch sid with
  | none => rw [hs] at h; simp at h
  | some bid =>
  rw [hs] at h
  simp only at h
  cases hb : s.batches bid with
  | none => rw [hb] at h; simp at h
  | some b =>
  rw [hb] at h
  simp only at h
  by_cases he : b.encoder ≠ s.config.encoder
  · rw [if_pos he] at h; simp at h
  rw [if_neg he] at h
  cases hm : multisig sid with
  | none => rw [hm] at h; simp at h
  | some m =>
  rw [hm] at h
  simp only at h
  cases hst : m.state with
  | pending =>
    rw [hst] at h
    simp only [Except.ok.injEq] at h
    subst h
    simp at hd
  | completed at' =>
  rw [hst] at h
  simp only at h
  cases ho : optimizeSigners m.signers m.quorum with
  | error e => rw [ho] at h; simp at h
  | ok r =>
  rw [ho] at h
  simp only at h
  cases hx : b.executeData X m.quorum r with
  | error e => rw [hx] at h; cases e <;> simp at h
  | ok d' =>
  rw [hx] at h
  simp only [Except.ok.injEq] at h
  subst h
  simp only [ProofStatus.completed.injEq] at hd
  subst hd
  exact ⟨bid, b, m, r, rfl, hb, rfl, ho, hx, at', hst⟩

/-- four members, three have signed: two signatures suffice for a quorum of 8 -/
def exSigners : List (Signer × Option Signature) := [
  (⟨1, 2, .ecdsa [1]⟩, some (.ecdsa [1])), (⟨2, 6, .ecdsa [2]⟩, none),
  (⟨3, 3, .ecdsa [3]⟩, some (.ecdsa [3])), (⟨4, 5, .ecdsa [4]⟩, some (.ecdsa [4]))]

example : (match optimizeSigners exSigners 8 with
    | .ok r => decide (r = [(⟨2, 6, .ecdsa [2]⟩, none), (⟨4, 5, .ecdsa [4]⟩, some (.ecdsa [4])),
        (⟨3, 3, .ecdsa [3]⟩, some (.ecdsa [3])), (⟨1, 2, .ecdsa [1]⟩, none)])
    | .error _ => false) = true ∧ weightOf (signed exSigners) = 10 := by decide

end Amp.Prover
