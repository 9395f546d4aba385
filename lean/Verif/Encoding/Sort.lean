import Verif.Encoding.Types
import Mathlib.Data.List.Sort

/-!
# Sorting: helper lemmas
-/

namespace Amp.Encoding

theorem insertBy_perm {α : Type} (leq : α → α → Bool) (x : α) (l : List α) :
    (insertBy leq x l).Perm (x :: l) := by
  induction l with
  | nil => exact List.Perm.refl _
  | cons y t ih =>
    unfold insertBy
    split
    · exact List.Perm.refl _
    · exact (List.Perm.cons y ih).trans (List.Perm.swap x y t)

theorem sortBy_perm {α : Type} (leq : α → α → Bool) (l : List α) : (sortBy leq l).Perm l := by
  induction l with
  | nil => exact List.Perm.refl _
  | cons x t ih => exact (insertBy_perm leq x _).trans (List.Perm.cons x ih)

theorem insertBy_pairwise {α : Type} {leq : α → α → Bool} {R : α → α → Prop}
    (htrans : ∀ a b c, R a b → R b c → R a c) (hle : ∀ a b, leq a b = true → R a b)
    (htot : ∀ a b, leq a b = false → R b a) (x : α) {l : List α} (h : l.Pairwise R) :
    (insertBy leq x l).Pairwise R := by
  induction l with
  | nil => simp [insertBy]
  | cons y t ih =>
    obtain ⟨h1, h2⟩ := List.pairwise_cons.mp h
    unfold insertBy
    split
    · rename_i hxy
      refine List.pairwise_cons.mpr ⟨?_, h⟩
      intro z hz
      rcases List.mem_cons.mp hz with rfl | hz
      · exact hle _ _ hxy
      · exact htrans _ _ _ (hle _ _ hxy) (h1 z hz)
    · rename_i hxy
      refine List.pairwise_cons.mpr ⟨?_, ih h2⟩
      intro z hz
      rcases List.mem_cons.mp ((insertBy_perm leq x t).mem_iff.mp hz) with rfl | hz
      · exact htot _ _ (by simpa using hxy)
      · exact h1 z hz

/-- the sorted list is ascending in `R`, if the comparison decides `R` up to ties -/
theorem sortBy_pairwise {α : Type} {leq : α → α → Bool} {R : α → α → Prop}
    (htrans : ∀ a b c, R a b → R b c → R a c) (hle : ∀ a b, leq a b = true → R a b)
    (htot : ∀ a b, leq a b = false → R b a) (l : List α) : (sortBy leq l).Pairwise R := by
  induction l with
  | nil => exact List.Pairwise.nil
  | cons x t ih => exact insertBy_pairwise htrans hle htot x ih

theorem sortByAddr_eq (l : List (Std.Bytes × Nat)) :
    Std.sortByAddr l = sortBy (fun a b => decide (a.1 ≤ b.1)) l := by
  have hins : ∀ x t, Std.insertByAddr x t = insertBy (fun a b => decide (a.1 ≤ b.1)) x t := by
    intro x t
    induction t with
    | nil => rfl
    | cons y t ih => simp only [Std.insertByAddr, insertBy, ih, decide_eq_true_eq]
  induction l with
  | nil => rfl
  | cons x t ih => simp only [Std.sortByAddr, sortBy, ih, hins]

theorem sortByAddr_perm (l : List (Std.Bytes × Nat)) : (Std.sortByAddr l).Perm l := by
  rw [sortByAddr_eq]; exact sortBy_perm _ _

theorem sortByAddr_sorted (l : List (Std.Bytes × Nat)) :
    ((Std.sortByAddr l).map Prod.fst).Pairwise (· ≤ ·) := by
  rw [sortByAddr_eq, List.pairwise_map]
  apply sortBy_pairwise
  · intro a b c h1 h2; exact le_trans h1 h2
  · intro a b h; simpa using h
  · intro a b h
    simp only [decide_eq_false_iff_not, not_le] at h
    exact le_of_lt h

theorem opLe_sorted (l : List Operator) :
    ((sortBy opLe l).map Operator.address).Pairwise (· ≤ ·) := by
  rw [List.pairwise_map]
  apply sortBy_pairwise
  · intro a b c h1 h2; exact le_trans h1 h2
  · intro a b h
    unfold opLe at h
    split at h
    · rename_i h'; exact le_of_lt h'
    · split at h
      · simp at h
      · rename_i h1 h2; exact not_lt.mp h2
  · intro a b h
    unfold opLe at h
    split at h
    · simp at h
    · rename_i h1; exact not_lt.mp h1

/-- permuting commutes with a partial map -/
theorem mapE_perm {α β ε : Type} {f : α → Except ε β} {l l' : List α} (h : l.Perm l') :
    ∀ {r : List β}, mapE f l = .ok r → ∃ r', mapE f l' = .ok r' ∧ r.Perm r' := by
  induction h with
  | nil => intro r h; exact ⟨r, h, List.Perm.refl _⟩
  | cons x _ ih =>
    intro r h
    obtain ⟨b, t, h1, h2, rfl⟩ := mapE_cons_ok.mp h
    obtain ⟨t', h3, h4⟩ := ih h2
    exact ⟨b :: t', mapE_cons_ok.mpr ⟨b, t', h1, h3, rfl⟩, h4.cons b⟩
  | swap x y l =>
    intro r h
    obtain ⟨b, t, h1, h2, rfl⟩ := mapE_cons_ok.mp h
    obtain ⟨b', t', h3, h4, rfl⟩ := mapE_cons_ok.mp h2
    exact ⟨b' :: b :: t', mapE_cons_ok.mpr ⟨b', _, h3, mapE_cons_ok.mpr ⟨b, t', h1, h4, rfl⟩, rfl⟩,
      List.Perm.swap _ _ _⟩
  | trans _ _ ih1 ih2 =>
    intro r h
    obtain ⟨r1, h1, p1⟩ := ih1 h
    obtain ⟨r2, h2, p2⟩ := ih2 h1
    exact ⟨r2, h2, p1.trans p2⟩

end Amp.Encoding
