import Verif.Prover.Example
import Verif.Encoding.Sort
import Verif.Base.Strings
import Mathlib.Data.Char

/-!
# Batch ids: C56
-/

namespace Amp.Prover

open Amp.Encoding
open Amp.Multisig (Signature PublicKey Signer WorkerSet)
open Amp.Router (CCId Message ChainName)

/-! ### Specification -/

/-- a message id without a comma, whose chain name has no colon, as no chain name has
(`C24_parse_sound`) -/
def PlainId (c : CCId) : Prop := ':' ∉ c.chain ∧ ',' ∉ c.chain ∧ ',' ∉ c.id

/-- two different texts with the same hash -/
def TextCollision (X : Ext) (a b : Str) : Prop := a ≠ b ∧ X.keccak (utf8Bytes a) = X.keccak (utf8Bytes b)

/-! ### Helper lemmas -/

theorem splitOn_joinComma {l : List Str} (hne : l ≠ []) (h : ∀ x ∈ l, ',' ∉ x) :
    splitOn ',' (joinComma l) = l := by
  induction l with
  | nil => exact absurd rfl hne
  | cons x t ih =>
    cases t with
    | nil => exact splitOn_of_notMem (h x (by simp))
    | cons y t =>
      show splitOn ',' (x ++ ',' :: joinComma (y :: t)) = _
      rw [splitOn_append (h x (by simp)), ih (by simp) (fun z hz => h z (by simp [hz]))]

theorem joinComma_inj {l m : List Str} (hl : ∀ x ∈ l, ',' ∉ x) (hm : ∀ x ∈ m, ',' ∉ x)
    (hl' : ∀ x ∈ l, x ≠ []) (hm' : ∀ x ∈ m, x ≠ []) (h : joinComma l = joinComma m) : l = m := by
  have nil_of : ∀ k : List Str, (∀ x ∈ k, x ≠ []) → joinComma k = [] → k = [] := by
    intro k hk h
    match k with
    | [] => rfl
    | [x] => exact absurd h (hk x (by simp))
    | x :: y :: t => simp [joinComma] at h
  by_cases hl0 : l = []
  · subst hl0
    exact (nil_of m hm' h.symm).symm
  · by_cases hm0 : m = []
    · subst hm0
      exact nil_of l hl' h
    · have := congrArg (splitOn ',') h
      rwa [splitOn_joinComma hl0 hl, splitOn_joinComma hm0 hm] at this

theorem sortStr_perm_eq {a b : List Str} (h : a.Perm b) :
    sortBy strLe a = sortBy strLe b := by
  have hs : ∀ l : List Str, (sortBy strLe l).Pairwise (fun a b => strLe a b = true) := by
    intro l
    apply sortBy_pairwise
    · intro a b c h1 h2
      unfold strLe at h1 h2 ⊢
      exact decide_eq_true (List.le_trans (of_decide_eq_true h1) (of_decide_eq_true h2))
    · intro a b h; exact h
    · intro a b h
      unfold strLe at h ⊢
      exact decide_eq_true ((List.le_total a b).resolve_left (of_decide_eq_false h))
  refine List.Perm.eq_of_pairwise ?_ (hs a) (hs b)
    (((sortBy_perm _ a).trans h).trans (sortBy_perm _ b).symm)
  intro a b _ _ h1 h2
  unfold strLe at h1 h2
  exact List.le_antisymm (of_decide_eq_true h1) (of_decide_eq_true h2)

theorem show_plain {c : CCId} (h : PlainId c) : ',' ∉ c.show ∧ c.show ≠ [] ∧ ':' ∈ c.show := by
  unfold CCId.show
  refine ⟨?_, by simp, by simp [Router.idSep]⟩
  simp only [List.mem_append, List.mem_cons, not_or]
  exact ⟨h.2.1, by decide, h.2.2⟩

theorem show_inj {a b : CCId} (ha : PlainId a) (hb : PlainId b) (h : a.show = b.show) : a = b := by
  unfold CCId.show at h
  have h1 := splitOnce_append ha.1 a.id
  have h2 := splitOnce_append hb.1 b.id
  unfold Router.idSep at h
  rw [h, h2] at h1
  simp only [Option.some.injEq, Prod.mk.injEq] at h1
  obtain ⟨ac, ai⟩ := a
  obtain ⟨bc, bi⟩ := b
  simp only at h1
  obtain ⟨rfl, rfl⟩ := h1
  rfl

theorem encodeHex_noComma {b : Bytes} (h : IsBytes b) : ',' ∉ encodeHex b := by
  have hd : ∀ n < 16, hexDigit n ≠ ',' := by decide
  induction b with
  | nil => simp [encodeHex]
  | cons x t ih =>
    have hx : x < 256 := h x (by simp)
    have iht := ih (fun y hy => h y (by simp [hy]))
    simp only [encodeHex, List.mem_cons, not_or]
    exact ⟨(hd _ (by omega)).symm, (hd _ (by omega)).symm, iht⟩

theorem map_show_perm {a b : List CCId} (ha : ∀ c ∈ a, PlainId c) (hb : ∀ c ∈ b, PlainId c)
    (h : (a.map CCId.show).Perm (b.map CCId.show)) : a.Perm b := by
  induction a generalizing b with
  | nil =>
    have := h.nil_eq
    rw [List.map_eq_nil_iff.mp this.symm]
  | cons x t ih =>
    have hx : x.show ∈ b.map CCId.show := h.subset (by simp)
    obtain ⟨y, hy, hyx⟩ := List.mem_map.mp hx
    have := show_inj (hb y hy) (ha x (by simp)) hyx
    subst this
    obtain ⟨b1, b2, rfl⟩ := List.append_of_mem hy
    have hp : (b1 ++ y :: b2).Perm (y :: (b1 ++ b2)) := List.perm_middle
    refine List.Perm.trans ?_ hp.symm
    apply List.Perm.cons
    apply ih (fun c hc => ha c (by simp [hc]))
    · intro c hc
      apply hb
      simp only [List.mem_append, List.mem_cons] at hc ⊢
      tauto
    · have := h.trans (hp.map CCId.show)
      simp only [List.map_cons] at this
      exact List.Perm.cons_inv this

/-- the parts that are joined -/
def batchParts (X : Ext) (ids : List CCId) (ws : Option WorkerSet) : List Str :=
  sortBy strLe (ids.map CCId.show) ++
    match ws with
    | none => []
    | some ws => [encodeHex (X.wsHash ws)]

theorem batchParts_ok (X : Ext) {ids : List CCId} (h : ∀ c ∈ ids, PlainId c) (ws : Option WorkerSet) :
    (∀ x ∈ batchParts X ids ws, ',' ∉ x) ∧ (∀ x ∈ batchParts X ids ws, x ≠ []) ∧
    (batchParts X ids ws).filter (fun x => decide (':' ∈ x)) =
      sortBy strLe (ids.map CCId.show) ∧
    (batchParts X ids ws).filter (fun x => ! decide (':' ∈ x)) =
      match ws with
      | none => []
      | some ws => [encodeHex (X.wsHash ws)] := by
  have hs : ∀ x ∈ sortBy strLe (ids.map CCId.show),
      ',' ∉ x ∧ x ≠ [] ∧ ':' ∈ x := by
    intro x hx
    obtain ⟨c, hc, rfl⟩ := List.mem_map.mp ((sortBy_perm _ _).subset hx)
    exact show_plain (h c hc)
  have hh : ∀ w : WorkerSet, ',' ∉ encodeHex (X.wsHash w) ∧ encodeHex (X.wsHash w) ≠ [] ∧
      ':' ∉ encodeHex (X.wsHash w) := by
    intro w
    refine ⟨encodeHex_noComma (X.wsHash_bytes w), ?_, (encodeHex_notMem (X.wsHash_bytes w)).1⟩
    have := X.wsHash_length w
    cases hb : X.wsHash w with
    | nil => rw [hb] at this; simp at this
    | cons x t => simp [encodeHex]
  unfold batchParts
  refine ⟨?_, ?_, ?_, ?_⟩
  · intro x hx
    rcases List.mem_append.mp hx with hx | hx
    · exact (hs x hx).1
    · cases ws with
      | none => simp at hx
      | some w => simp only [List.mem_singleton] at hx; subst hx; exact (hh w).1
  · intro x hx
    rcases List.mem_append.mp hx with hx | hx
    · exact (hs x hx).2.1
    · cases ws with
      | none => simp at hx
      | some w => simp only [List.mem_singleton] at hx; subst hx; exact (hh w).2.1
  · rw [List.filter_append, List.filter_eq_self.mpr (fun x hx => by simpa using (hs x hx).2.2)]
    cases ws with
    | none => simp
    | some w => simp [(hh w).2.2]
  · rw [List.filter_append, List.filter_eq_nil_iff.mpr (fun x hx => by simpa using (hs x hx).2.2)]
    cases ws with
    | none => simp
    | some w => simp [(hh w).2.2]

/-! ### C56 -/

/-- C56: the id of a batch does not depend on the order of the message ids. -/
theorem C56_order (X : Ext) (ids ids' : List CCId) (ws : Option WorkerSet) (h : ids.Perm ids') :
    batchId X ids ws = batchId X ids' ws := by
  unfold batchId batchText
  rw [sortStr_perm_eq (h.map CCId.show)]

/-- C56: two batches of plain ids with the same batch id have the same message ids, up to their order, and
the same worker set, or both none, unless the texts that are hashed, or the two worker sets, are a collision
of the respective hash function. -/
theorem C56_identifies (X : Ext) (ids ids' : List CCId) (ws ws' : Option WorkerSet)
    (hi : ∀ c ∈ ids, PlainId c) (hi' : ∀ c ∈ ids', PlainId c)
    (h : batchId X ids ws = batchId X ids' ws') :
    (ids.Perm ids' ∧ ws = ws') ∨ TextCollision X (batchText X ids ws) (batchText X ids' ws') ∨
      (∃ w w', ws = some w ∧ ws' = some w' ∧ w ≠ w' ∧ X.wsHash w = X.wsHash w') := by
  by_cases ht : batchText X ids ws = batchText X ids' ws'
  swap
  · exact Or.inr (Or.inl ⟨ht, h⟩)
  obtain ⟨h1, h2, h3, h4⟩ := batchParts_ok X hi ws
  obtain ⟨h1', h2', h3', h4'⟩ := batchParts_ok X hi' ws'
  have hp : batchParts X ids ws = batchParts X ids' ws' := joinComma_inj h1 h1' h2 h2' ht
  have hsort : sortBy strLe (ids.map CCId.show) =
      sortBy strLe (ids'.map CCId.show) := by
    rw [← h3, ← h3', hp]
  have hperm : ids.Perm ids' := by
    apply map_show_perm hi hi'
    have := (sortBy_perm strLe (ids.map CCId.show)).symm
    rw [hsort] at this
    exact this.trans (sortBy_perm _ _)
  rw [hp, h4'] at h4
  cases ws with
  | none =>
    cases ws' with
    | none => exact Or.inl ⟨hperm, rfl⟩
    | some w => simp at h4
  | some w =>
    cases ws' with
    | none => simp at h4
    | some w' =>
      simp only [List.cons.injEq, and_true] at h4
      have hw := encodeHex_inj (X.wsHash_bytes w') (X.wsHash_bytes w) h4
      by_cases hww : w = w'
      · subst hww
        exact Or.inl ⟨hperm, rfl⟩
      · exact Or.inr (Or.inr ⟨w, w', rfl, rfl, hww, hw.symm⟩)

/-- C56 is false for arbitrary ids: a comma in a message id can make two different batches have the same
id, whatever the hash function. -/
theorem C56_counterexample : ∃ ids ids' : List CCId, ids.length ≠ ids'.length ∧
    ∀ (X : Ext) (ws : Option WorkerSet), batchId X ids ws = batchId X ids' ws := by
  refine ⟨[⟨"eth".toList, "x:1,sui:y:2".toList⟩], [⟨"eth".toList, "x:1".toList⟩, ⟨"sui".toList, "y:2".toList⟩],
    by decide, ?_⟩
  intro X ws
  unfold batchId batchText
  have hl : sortBy strLe (([⟨"eth".toList, "x:1,sui:y:2".toList⟩] : List CCId).map
      CCId.show) = ["eth:x:1,sui:y:2".toList] := by decide
  have hr : sortBy strLe (([⟨"eth".toList, "x:1".toList⟩,
      ⟨"sui".toList, "y:2".toList⟩] : List CCId).map CCId.show) = ["eth:x:1".toList, "sui:y:2".toList] := by
    decide
  rw [hl, hr]
  cases ws with
  | none => rfl
  | some w => rfl

/-- two different orders; plain ids -/
example : batchId exX [exId1, exId2] none = batchId exX [exId2, exId1] none ∧
    batchId exX [exId1, exId2] none ≠ batchId exX [exId1] none ∧
    batchId exX [exId1] none ≠ batchId exX [exId1] (some (exSet [5] 1 2)) := by decide +kernel

example : PlainId exId1 ∧ PlainId exId2 := by unfold PlainId; decide

end Amp.Prover
