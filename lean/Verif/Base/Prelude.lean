import Mathlib.Order.Defs.LinearOrder
import Mathlib.Order.Basic
import Mathlib.Algebra.Order.Group.Nat

/-!
# Shared vocabulary of the model

Nothing in this file models a particular function of `/repo`; it fixes the data representation used
by all the other files (see the conventions in `DESIGN.md`).
-/

namespace Amp

/-- Account addresses (`cosmwasm_std::Addr`).  Opaque: only equality and the total (byte-wise) order
are used by the contracts. -/
abbrev Addr := Nat

/-- Strings whose structure matters.  Rust orders strings by UTF-8 bytes, which coincides with the
lexicographic order on code points used here. -/
abbrev Str := List Char

/-- Bounds of the integer types used by the contracts. -/
def u64Max : Nat := 2 ^ 64 - 1
def u128Max : Nat := 2 ^ 128 - 1
def u256Max : Nat := 2 ^ 256 - 1

/-! ## Key-value stores accessed pointwise (`cw_storage_plus::Map` used with `load/save/may_load`) -/

/-- A store accessed only pointwise. -/
abbrev KV (K V : Type) := K → Option V

namespace KV
variable {K V : Type}

/-- the empty store -/
def empty : KV K V := fun _ => none

/-- `Map::save` -/
def set [DecidableEq K] (m : KV K V) (k : K) (v : V) : KV K V :=
  fun k' => if k' = k then some v else m k'

/-- `Map::remove` -/
def erase [DecidableEq K] (m : KV K V) (k : K) : KV K V :=
  fun k' => if k' = k then none else m k'

@[simp] theorem set_self [DecidableEq K] (m : KV K V) (k : K) (v : V) : m.set k v k = some v := by
  simp [set]

theorem set_ne [DecidableEq K] (m : KV K V) {k k' : K} (v : V) (h : k' ≠ k) :
    m.set k v k' = m k' := by
  simp [set, h]

theorem set_apply [DecidableEq K] (m : KV K V) (k k' : K) (v : V) :
    m.set k v k' = if k' = k then some v else m k' := rfl

theorem erase_apply [DecidableEq K] (m : KV K V) (k k' : K) :
    m.erase k k' = if k' = k then none else m k' := rfl

@[simp] theorem empty_apply (k : K) : (empty : KV K V) k = none := rfl

end KV

/-! ## Ordered maps that the code iterates over (`BTreeMap`, `Map::range/prefix`) -/

/-- An ordered map: an association list kept in strictly ascending key order. -/
abbrev OMap (K V : Type) := List (K × V)

namespace OMap
variable {K V : Type}

/-- lookup -/
def get? [DecidableEq K] : OMap K V → K → Option V
  | [], _ => none
  | (k', v) :: t, k => if k = k' then some v else get? t k

/-- insert or replace, keeping the list sorted -/
def set [LinearOrder K] : OMap K V → K → V → OMap K V
  | [], k, v => [(k, v)]
  | (k', v') :: t, k, v =>
    if k < k' then (k, v) :: (k', v') :: t
    else if k = k' then (k, v) :: t
    else (k', v') :: set t k v

/-- remove -/
def erase [DecidableEq K] : OMap K V → K → OMap K V
  | [], _ => []
  | (k', v') :: t, k => if k = k' then t else (k', v') :: erase t k

/-- keys in order -/
def keys (m : OMap K V) : List K := m.map Prod.fst

/-- strictly ascending keys -/
def Sorted [LinearOrder K] (m : OMap K V) : Prop := m.Pairwise (fun a b => a.1 < b.1)

/-- build from a list, later entries overwrite earlier ones (`collect::<BTreeMap<_,_>>()`) -/
def ofList [LinearOrder K] (l : List (K × V)) : OMap K V :=
  l.foldl (fun m e => m.set e.1 e.2) []

section lemmas
variable [LinearOrder K]

@[simp] theorem get?_nil (k : K) : get? ([] : OMap K V) k = none := rfl

theorem get?_cons (k' : K) (v : V) (t : OMap K V) (k : K) :
    get? ((k', v) :: t) k = if k = k' then some v else get? t k := rfl

theorem get?_set_self (m : OMap K V) (k : K) (v : V) : (m.set k v).get? k = some v := by
  induction m with
  | nil => simp [set, get?]
  | cons e t ih =>
    obtain ⟨k', v'⟩ := e
    unfold set
    split
    · simp [get?]
    · split
      · simp [get?]
      · simp [get?, *]

theorem get?_set_ne (m : OMap K V) {k k' : K} (v : V) (h : k' ≠ k) :
    (m.set k v).get? k' = m.get? k' := by
  induction m with
  | nil => simp [set, get?, h]
  | cons e t ih =>
    obtain ⟨k'', v'⟩ := e
    unfold set
    split
    · simp [get?, h]
    · split
      · rename_i h2; subst h2; simp [get?, h]
      · simp [get?, ih]

theorem get?_set (m : OMap K V) (k k' : K) (v : V) :
    (m.set k v).get? k' = if k' = k then some v else m.get? k' := by
  by_cases h : k' = k
  · subst h; simp [get?_set_self]
  · simp [h, get?_set_ne _ _ h]

theorem mem_of_get? {m : OMap K V} {k : K} {v : V} (h : m.get? k = some v) : (k, v) ∈ m := by
  induction m with
  | nil => simp at h
  | cons e t ih =>
    obtain ⟨k', v'⟩ := e
    rw [get?_cons] at h
    split at h
    · simp_all
    · exact List.mem_cons_of_mem _ (ih h)

theorem Sorted.tail {e : K × V} {t : OMap K V} (h : Sorted (e :: t)) : Sorted t :=
  (List.pairwise_cons.mp h).2

theorem Sorted.head_lt {e : K × V} {t : OMap K V} (h : Sorted (e :: t)) :
    ∀ x ∈ t, e.1 < x.1 := (List.pairwise_cons.mp h).1

theorem sorted_nil : Sorted ([] : OMap K V) := List.Pairwise.nil

theorem get?_of_mem {m : OMap K V} (hs : Sorted m) {k : K} {v : V} (h : (k, v) ∈ m) :
    m.get? k = some v := by
  induction m with
  | nil => simp at h
  | cons e t ih =>
    obtain ⟨k', v'⟩ := e
    rw [get?_cons]
    rcases List.mem_cons.mp h with h | h
    · simp_all
    · have hlt := hs.head_lt _ h
      simp only at hlt
      rw [if_neg (ne_of_gt hlt)]
      exact ih hs.tail h

theorem mem_iff_get? {m : OMap K V} (hs : Sorted m) {k : K} {v : V} :
    (k, v) ∈ m ↔ m.get? k = some v := ⟨get?_of_mem hs, mem_of_get?⟩

theorem get?_none_of_lt {m : OMap K V} {k : K} (h : ∀ x ∈ m, k < x.1) : m.get? k = none := by
  induction m with
  | nil => rfl
  | cons e t ih =>
    obtain ⟨k', v'⟩ := e
    have h1 := h (k', v') (by simp)
    rw [get?_cons, if_neg (ne_of_lt h1)]
    exact ih (fun x hx => h x (List.mem_cons_of_mem _ hx))

theorem get?_eq_none_iff {m : OMap K V} {k : K} : m.get? k = none ↔ k ∉ m.keys := by
  induction m with
  | nil => simp [keys]
  | cons e t ih =>
    obtain ⟨k', v'⟩ := e
    rw [get?_cons]
    simp only [keys, List.map_cons, List.mem_cons, not_or] at *
    split
    · simp_all
    · simp_all

theorem mem_set {m : OMap K V} {k : K} {v : V} {x : K × V} (h : x ∈ m.set k v) :
    x = (k, v) ∨ x ∈ m := by
  induction m with
  | nil => simpa [set] using h
  | cons e t ih =>
    obtain ⟨k', v'⟩ := e
    unfold set at h
    split at h
    · simpa using h
    · split at h
      · rcases List.mem_cons.mp h with h | h
        · exact Or.inl h
        · exact Or.inr (List.mem_cons_of_mem _ h)
      · rcases List.mem_cons.mp h with h | h
        · exact Or.inr (by simp [h])
        · rcases ih h with h | h
          · exact Or.inl h
          · exact Or.inr (List.mem_cons_of_mem _ h)

theorem sorted_set {m : OMap K V} (hs : Sorted m) (k : K) (v : V) : Sorted (m.set k v) := by
  induction m with
  | nil => simp [set, Sorted]
  | cons e t ih =>
    obtain ⟨k', v'⟩ := e
    have hlt := hs.head_lt
    unfold set
    split
    · rename_i h
      refine List.pairwise_cons.mpr ⟨?_, hs⟩
      intro x hx
      rcases List.mem_cons.mp hx with hx | hx
      · subst hx; exact h
      · exact lt_trans h (hlt x hx)
    · split
      · rename_i h
        subst h
        exact List.pairwise_cons.mpr ⟨fun x hx => hlt x hx, hs.tail⟩
      · rename_i h1 h2
        refine List.pairwise_cons.mpr ⟨?_, ih hs.tail⟩
        intro x hx
        rcases mem_set hx with hx | hx
        · subst hx
          exact lt_of_le_of_ne (not_lt.mp h1) (Ne.symm h2)
        · exact hlt x hx

theorem sorted_foldl_set (l : List (K × V)) (m : OMap K V) (h : Sorted m) :
    Sorted (l.foldl (fun m e => m.set e.1 e.2) m) := by
  induction l generalizing m with
  | nil => exact h
  | cons e t ih => exact ih _ (sorted_set h _ _)

theorem sorted_ofList (l : List (K × V)) : Sorted (ofList l) :=
  sorted_foldl_set l [] sorted_nil

theorem keys_nodup {m : OMap K V} (hs : Sorted m) : m.keys.Nodup := by
  unfold keys
  exact List.Pairwise.map _ (fun a b h => ne_of_lt h) hs

theorem keys_sorted {m : OMap K V} (hs : Sorted m) : m.keys.Pairwise (· < ·) := by
  unfold keys
  exact List.Pairwise.map _ (fun a b h => h) hs

/-- sum of a weight over all entries -/
def sumBy (f : K → V → Nat) (m : OMap K V) : Nat := (m.map (fun e => f e.1 e.2)).sum

omit [LinearOrder K] in
theorem sumBy_cons (f : K → V → Nat) (e : K × V) (t : OMap K V) :
    sumBy f (e :: t) = f e.1 e.2 + sumBy f t := by simp [sumBy]

omit [LinearOrder K] in
@[simp] theorem sumBy_nil (f : K → V → Nat) : sumBy f ([] : OMap K V) = 0 := rfl

theorem sumBy_set_some (f : K → V → Nat) {m : OMap K V} (hs : Sorted m) {k : K} {v0 : V}
    (v : V) (h : m.get? k = some v0) :
    sumBy f (m.set k v) + f k v0 = sumBy f m + f k v := by
  induction m with
  | nil => simp at h
  | cons e t ih =>
    obtain ⟨k', v'⟩ := e
    rw [get?_cons] at h
    unfold set
    by_cases hk : k = k'
    · subst hk
      simp only [if_true, Option.some.injEq] at h
      subst h
      simp only [lt_irrefl, if_false, if_true, sumBy_cons]
      omega
    · rw [if_neg hk] at h
      have hmem := mem_of_get? h
      have hlt := hs.head_lt _ hmem
      simp only at hlt
      rw [if_neg (not_lt.mpr (le_of_lt hlt)), if_neg hk]
      have := ih hs.tail h
      simp only [sumBy_cons]
      omega

theorem sumBy_set_none (f : K → V → Nat) {m : OMap K V} {k : K}
    (v : V) (h : m.get? k = none) :
    sumBy f (m.set k v) = sumBy f m + f k v := by
  induction m with
  | nil => simp [set, sumBy]
  | cons e t ih =>
    obtain ⟨k', v'⟩ := e
    rw [get?_cons] at h
    unfold set
    by_cases hk : k = k'
    · subst hk; simp at h
    · rw [if_neg hk] at h
      split
      · simp only [sumBy_cons]; omega
      · have := ih h
        simp only [sumBy_cons]
        omega

omit [LinearOrder K] in
theorem sumBy_le_of_le {f g : K → V → Nat} {m : OMap K V} (h : ∀ e ∈ m, f e.1 e.2 ≤ g e.1 e.2) :
    sumBy f m ≤ sumBy g m := by
  induction m with
  | nil => simp
  | cons e t ih =>
    have h1 := h e (by simp)
    have h2 := ih (fun e he => h e (List.mem_cons_of_mem _ he))
    simp only [sumBy_cons]; omega

omit [LinearOrder K] in
theorem sumBy_add (f g : K → V → Nat) (m : OMap K V) :
    sumBy (fun k v => f k v + g k v) m = sumBy f m + sumBy g m := by
  induction m with
  | nil => simp
  | cons e t ih => simp only [sumBy_cons, ih]; omega

theorem mem_set_self (m : OMap K V) (k : K) (v : V) : (k, v) ∈ m.set k v :=
  mem_of_get? (get?_set_self m k v)

theorem keys_set_of_some {m : OMap K V} (hs : Sorted m) {k : K} {v0 : V} (v : V)
    (h : m.get? k = some v0) : (m.set k v).keys = m.keys := by
  induction m with
  | nil => simp at h
  | cons e t ih =>
    obtain ⟨k', v'⟩ := e
    rw [get?_cons] at h
    unfold set
    by_cases hk : k = k'
    · subst hk; simp [keys]
    · rw [if_neg hk] at h
      have hlt := hs.head_lt _ (mem_of_get? h)
      simp only at hlt
      rw [if_neg (not_lt.mpr (le_of_lt hlt)), if_neg hk]
      have := ih hs.tail h
      simp only [keys, List.map_cons] at *
      rw [this]

end lemmas
end OMap

/-! ## Fallible maps over lists (`iter().map(f).collect::<Result<Vec<_>, _>>()`) -/

/-- apply a fallible function to every element in order, failing at the first failure -/
def mapE {α β ε : Type} (f : α → Except ε β) : List α → Except ε (List β)
  | [] => .ok []
  | a :: t =>
    match f a with
    | .error e => .error e
    | .ok b =>
      match mapE f t with
      | .error e => .error e
      | .ok bs => .ok (b :: bs)

theorem mapE_cons_ok {α β ε : Type} {f : α → Except ε β} {a : α} {t : List α} {r : List β} :
    mapE f (a :: t) = .ok r ↔ ∃ b bs, f a = .ok b ∧ mapE f t = .ok bs ∧ r = b :: bs := by
  simp only [mapE]
  cases h1 : f a with
  | error e => simp
  | ok b =>
    cases h2 : mapE f t with
    | error e => simp
    | ok bs => simp [eq_comm]

theorem mapE_length {α β ε : Type} {f : α → Except ε β} {l : List α} {r : List β}
    (h : mapE f l = .ok r) : r.length = l.length := by
  induction l generalizing r with
  | nil => simp only [mapE, Except.ok.injEq] at h; subst h; rfl
  | cons a t ih =>
    obtain ⟨b, bs, _, h2, rfl⟩ := mapE_cons_ok.mp h
    simp [ih h2]

theorem mapE_getElem? {α β ε : Type} {f : α → Except ε β} {l : List α} {r : List β}
    (h : mapE f l = .ok r) {i : Nat} {a : α} (hi : l[i]? = some a) :
    ∃ b, f a = .ok b ∧ r[i]? = some b := by
  induction l generalizing r i with
  | nil => simp at hi
  | cons x t ih =>
    obtain ⟨b, bs, h1, h2, rfl⟩ := mapE_cons_ok.mp h
    cases i with
    | zero => simp only [List.getElem?_cons_zero, Option.some.injEq] at hi; subst hi; exact ⟨b, h1, rfl⟩
    | succ i => simp only [List.getElem?_cons_succ] at hi ⊢; exact ih h2 hi

theorem mapE_ok_of_forall {α β ε : Type} {f : α → Except ε β} {l : List α}
    (h : ∀ a ∈ l, ∃ b, f a = .ok b) : ∃ r, mapE f l = .ok r := by
  induction l with
  | nil => exact ⟨[], rfl⟩
  | cons a t ih =>
    obtain ⟨b, hb⟩ := h a (by simp)
    obtain ⟨r, hr⟩ := ih (fun x hx => h x (by simp [hx]))
    exact ⟨b :: r, mapE_cons_ok.mpr ⟨b, r, hb, hr, rfl⟩⟩

theorem mapE_mem {α β ε : Type} {f : α → Except ε β} {l : List α} {r : List β}
    (h : mapE f l = .ok r) {a : α} (ha : a ∈ l) : ∃ b ∈ r, f a = .ok b := by
  obtain ⟨i, hi⟩ := List.mem_iff_getElem?.mp ha
  obtain ⟨b, h1, h2⟩ := mapE_getElem? h hi
  exact ⟨b, List.mem_of_getElem? h2, h1⟩

theorem mapE_mem_right {α β ε : Type} {f : α → Except ε β} {l : List α} {r : List β}
    (h : mapE f l = .ok r) {b : β} (hb : b ∈ r) : ∃ a ∈ l, f a = .ok b := by
  induction l generalizing r with
  | nil => simp only [mapE, Except.ok.injEq] at h; subst h; simp at hb
  | cons x t ih =>
    obtain ⟨b', bs, h1, h2, rfl⟩ := mapE_cons_ok.mp h
    rcases List.mem_cons.mp hb with rfl | hb
    · exact ⟨x, by simp, h1⟩
    · obtain ⟨a, ha, hf⟩ := ih h2 hb
      exact ⟨a, by simp [ha], hf⟩

/-! ## Atomic transactions

CosmWasm reverts all state changes of a transaction whose execution returns an error or panics. -/

/-- The state after a call: the new state if it succeeded, the old one if it failed. -/
def commit {S R E : Type} (s : S) (r : Except E (S × R)) : S :=
  match r with
  | .ok (s', _) => s'
  | .error _ => s

/-- The state after a list of calls made one after the other. -/
def runCalls {S C R E : Type} (exec : S → C → Except E (S × R)) (s : S) (cs : List C) : S :=
  cs.foldl (fun s c => commit s (exec s c)) s

section
variable {S C R E : Type} (exec : S → C → Except E (S × R))

@[simp] theorem runCalls_nil (s : S) : runCalls exec s [] = s := rfl

@[simp] theorem runCalls_cons (s : S) (c : C) (cs : List C) :
    runCalls exec s (c :: cs) = runCalls exec (commit s (exec s c)) cs := rfl

theorem runCalls_append (s : S) (cs ds : List C) :
    runCalls exec s (cs ++ ds) = runCalls exec (runCalls exec s cs) ds := by
  simp [runCalls, List.foldl_append]

/-- Invariants preserved by every successful call hold after every history. -/
theorem runCalls_inv {P : S → Prop} (h : ∀ s c s' r, P s → exec s c = .ok (s', r) → P s')
    (s : S) (hs : P s) (cs : List C) : P (runCalls exec s cs) := by
  induction cs generalizing s with
  | nil => exact hs
  | cons c cs ih =>
    rw [runCalls_cons]
    refine ih _ ?_
    unfold commit
    split
    · rename_i s' r heq
      exact h s c s' r hs heq
    · exact hs

/-- The log of the successful calls of a history, in order, each with its response. -/
def outs (s : S) : List C → List (C × R)
  | [] => []
  | c :: cs =>
    match exec s c with
    | .ok (s', r) => (c, r) :: outs s' cs
    | .error _ => outs s cs

@[simp] theorem outs_nil (s : S) : outs exec s [] = [] := rfl

theorem outs_cons_ok {s s' : S} {c : C} {r : R} (h : exec s c = .ok (s', r)) (cs : List C) :
    outs exec s (c :: cs) = (c, r) :: outs exec s' cs := by
  simp [outs, h]

theorem outs_cons_error {s : S} {c : C} {e : E} (h : exec s c = .error e) (cs : List C) :
    outs exec s (c :: cs) = outs exec s cs := by
  simp [outs, h]

theorem outs_append (s : S) (cs ds : List C) :
    outs exec s (cs ++ ds) = outs exec s cs ++ outs exec (runCalls exec s cs) ds := by
  induction cs generalizing s with
  | nil => rfl
  | cons c cs ih =>
    rw [List.cons_append]
    cases h : exec s c with
    | error e => rw [outs_cons_error exec h, outs_cons_error exec h, ih, runCalls_cons, h]; rfl
    | ok x =>
      obtain ⟨s', r⟩ := x
      rw [outs_cons_ok exec h, outs_cons_ok exec h, ih, runCalls_cons, h]; rfl

/-- Invariants relating the log of successful calls to the state. -/
theorem outs_inv {P : List (C × R) → S → Prop} (s0 : S) (h0 : P [] s0)
    (h : ∀ log s c s' r, P log s → exec s c = .ok (s', r) → P (log ++ [(c, r)]) s')
    (cs : List C) : P (outs exec s0 cs) (runCalls exec s0 cs) := by
  suffices H : ∀ cs s log, P log s → P (log ++ outs exec s cs) (runCalls exec s cs) by
    simpa using H cs s0 [] h0
  intro cs
  induction cs with
  | nil => intro s log hp; simpa using hp
  | cons c cs ih =>
    intro s log hp
    cases hx : exec s c with
    | error e =>
      rw [outs_cons_error exec hx, runCalls_cons, hx]
      exact ih s log hp
    | ok x =>
      obtain ⟨s', r⟩ := x
      rw [outs_cons_ok exec hx, runCalls_cons, hx]
      have := ih s' _ (h log s c s' r hp hx)
      rw [List.append_assoc] at this
      exact this

/-- Every entry of the log is a successful call of the history, at a moment that splits both. -/
theorem outs_split {s : S} {cs : List C} {l₁ l₂ : List (C × R)} {c : C} {r : R}
    (h : outs exec s cs = l₁ ++ (c, r) :: l₂) :
    ∃ cs₁ cs₂ s', cs = cs₁ ++ c :: cs₂ ∧ outs exec s cs₁ = l₁ ∧
      exec (runCalls exec s cs₁) c = .ok (s', r) ∧ outs exec s' cs₂ = l₂ ∧
      runCalls exec s cs = runCalls exec s' cs₂ := by
  induction cs generalizing s l₁ with
  | nil => simp at h
  | cons d cs ih =>
    cases hx : exec s d with
    | error e =>
      rw [outs_cons_error exec hx] at h
      obtain ⟨cs₁, cs₂, s', h1, h2, h3, h4, h5⟩ := ih h
      refine ⟨d :: cs₁, cs₂, s', by rw [h1]; rfl, by rw [outs_cons_error exec hx, h2], ?_, h4, ?_⟩
      · rw [runCalls_cons, hx]; exact h3
      · rw [runCalls_cons, hx]; exact h5
    | ok x =>
      obtain ⟨s1, r1⟩ := x
      rw [outs_cons_ok exec hx] at h
      cases l₁ with
      | nil =>
        simp only [List.nil_append, List.cons.injEq, Prod.mk.injEq] at h
        obtain ⟨⟨rfl, rfl⟩, rfl⟩ := h
        exact ⟨[], cs, s1, rfl, rfl, hx, rfl, by rw [runCalls_cons, hx]; rfl⟩
      | cons e l₁ =>
        simp only [List.cons_append, List.cons.injEq] at h
        obtain ⟨rfl, h⟩ := h
        obtain ⟨cs₁, cs₂, s', h1, h2, h3, h4, h5⟩ := ih h
        refine ⟨d :: cs₁, cs₂, s', by rw [h1]; rfl, by rw [outs_cons_ok exec hx, h2], ?_, h4, ?_⟩
        · rw [runCalls_cons, hx]; exact h3
        · rw [runCalls_cons, hx]; exact h5

theorem outs_mem {s : S} {cs : List C} {e : C × R} (h : e ∈ outs exec s cs) :
    ∃ cs₁ cs₂ s', cs = cs₁ ++ e.1 :: cs₂ ∧ exec (runCalls exec s cs₁) e.1 = .ok (s', e.2) := by
  obtain ⟨l₁, l₂, hl⟩ := List.append_of_mem h
  obtain ⟨cs₁, cs₂, s', h1, _, h3, _⟩ := outs_split exec hl
  exact ⟨cs₁, cs₂, s', h1, h3⟩

end

end Amp
