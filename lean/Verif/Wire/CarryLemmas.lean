import Verif.Wire.CarrySpec
import Verif.Wire.EndToEndProps
import Verif.Chain.DaemonsProps

/-!
# Helper lemmas for C114
-/

namespace Amp.Chain

variable {P : Params}

/-- a message for a contract is delivered, or the transaction fails -/
theorem run_carries {b : Block} {accepts : Addr → Bool} (n : Nat) :
    ∀ {w w' : World} {ps : List Pending} {es : List Entry}, run P b accepts n w ps = .ok (w', es) →
      ∀ p ∈ ps, accepts p.target = false → ∃ e ∈ es, e.p = p := by
  induction n with
  | zero =>
    intro w w' ps es h
    cases ps with
    | nil => intro p hp; cases hp
    | cons p t => simp [run] at h
  | succ n ih =>
    intro w w' ps es h
    cases ps with
    | nil => intro p hp; cases hp
    | cons p t =>
      intro q hq hacc
      rw [run] at h
      split at h
      · rename_i hc
        rcases List.mem_cons.mp hq with rfl | hq
        · rw [hacc] at hc; simp at hc
        · exact ih h q hq hacc
      · cases hd : deliver P b w p with
        | error e => rw [hd] at h; simp at h
        | ok y =>
          obtain ⟨w1, es1, out⟩ := y
          rw [hd] at h
          simp only at h
          cases hr : run P b accepts n w1 (out ++ t) with
          | error e => rw [hr] at h; simp at h
          | ok z =>
            obtain ⟨w2, es2⟩ := z
            rw [hr] at h
            simp only [Except.ok.injEq, Prod.mk.injEq] at h
            obtain ⟨rfl, rfl⟩ := h
            rcases List.mem_cons.mp hq with rfl | hq
            · suffices hs : ∃ e ∈ es1, e.p = q by
                obtain ⟨e, he, h⟩ := hs
                exact ⟨e, List.mem_append_left _ he, h⟩
              unfold deliver at hd
              split at hd
              · split at hd
                · split at hd
                  · simp at hd
                  · simp only at hd
                    split at hd
                    · split at hd
                      · simp at hd
                      · simp only [Except.ok.injEq, Prod.mk.injEq] at hd
                        obtain ⟨_, rfl, rfl⟩ := hd
                        exact ⟨_, List.mem_cons_self .., rfl⟩
                    · simp at hd
                · simp at hd
              · split at hd
                · simp at hd
                · simp only [Except.ok.injEq, Prod.mk.injEq] at hd
                  obtain ⟨_, rfl, rfl⟩ := hd
                  exact ⟨_, List.mem_cons_self .., rfl⟩
            · obtain ⟨e, he, h⟩ := ih hr q (List.mem_append_right _ hq) hacc
              exact ⟨e, List.mem_append_right _ he, h⟩

theorem setupOf_append (l₁ l₂ : List Step) (a : Addr) :
    setupOf (l₁ ++ l₂) a = (setupOf l₁ a).or (setupOf l₂ a) := by
  induction l₁ with
  | nil => rfl
  | cons s t ih =>
    cases s with
    | tx x => exact ih
    | found b k =>
      simp only [List.cons_append, setupOf]
      split
      · rfl
      · exact ih

/-- a response shows the height of the call and its message -/
theorem blind_verifier {e e' : Entry} (h : e'.blind = e.blind) {c : VV.Call} {r : VV.Resp} (ha : e.act = .verifier c r) :
    e'.p = e.p ∧ ∃ c', e'.act = .verifier c' r ∧ c'.height = c.height ∧ c'.sender = c.sender ∧ c'.msg = c.msg := by
  refine ⟨(congrArg Entry.p h : _), ?_⟩
  have h2 : e'.act.blind = e.act.blind := congrArg Entry.act h
  rw [ha] at h2
  cases hx : e'.act with
  | verifier c' r' =>
    rw [hx] at h2
    simp only [Act.blind, Act.verifier.injEq, VV.Call.mk.injEq] at h2
    obtain ⟨⟨a1, a2, -, a4⟩, rfl⟩ := h2
    exact ⟨c', rfl, a1, a2, a4⟩
  | _ => rw [hx] at h2; simp [Act.blind] at h2

/-- a successful call is one that changed the storage -/
theorem call_history {H : VV.Hashes} {vc : VV.Config} {c₁ c₂ : List VV.Call} {c : VV.Call} {s' : VV.State} {r : VV.Resp}
    (h : VV.exec H (VV.stateAfter H vc c₁) c = .ok (s', r)) : (c, r) ∈ VV.history H vc (c₁ ++ c :: c₂) := by
  unfold VV.history
  rw [outs_append, outs_cons_ok _ h]
  simp

end Amp.Chain

namespace Amp.Wire

open Amp.Chain (Params Setup Entry Tx)
open Amp.Router (Message)

variable {G : Texture} {P : Params}

theorem textSetup_mono (us vs : List TextStep) {a : Addr} {k : Chain.Kind} (h : textSetup G us a = some k) :
    textSetup G (us ++ vs) a = some k := by
  unfold textSetup at *
  rw [List.filterMap_append, Chain.setupOf_append, h]
  rfl

theorem textApart_prefix {us vs : List TextStep} (h : TextApart G (us ++ vs)) : TextApart G us := by
  intro t ht a hn
  refine h t (List.mem_append_left _ ht) a ?_
  cases hk : textSetup G us a with
  | none => exact absurd hk hn
  | some k => rw [textSetup_mono us vs hk]; simp

/-- a transaction of texts after a history is the transaction that it says -/
theorem exec_after (hG : Sound G) (hX : ∀ b, IsBytes (P.X.keccak b)) (ts : List TextStep) (hb : ∀ s ∈ ts, StepInRange s)
    (ha : TextApart G ts) (t : TextTx) (ht : InRange t) {x : Chain.World × List Entry} :
    execText G P (textDeployedWorld G P ts) t = .ok x ↔
      Chain.exec P (Chain.worldAfter P (textSetup G ts) (Chain.succeeded P (steps G ts))) (meaning G (textSetup G ts) t) = .ok x := by
  obtain ⟨h1, -, h3, -, -⟩ := C105_history (P := P) hG hX ts hb ha
  obtain ⟨xs, g1, g2⟩ := succeeded_texts (G := G) (P := P) ts
  have hr : ∀ x ∈ xs, InRange x := fun x hx => hb _ (g2 x hx)
  have hw : WorldTyped G.L (Chain.worldAfter P (textSetup G ts) (Chain.succeeded P (steps G ts))) := by
    rw [g1, ← (C95_history (P := P) hG hX h3 xs hr).1]
    exact history_typed (P := P) hG hX (forall₂_map xs (fun t ht => says_meaning t (hr t ht))) (parties_genesis _)
      (typed_genesis h3) hr
  have hk : OfKind (textSetup G ts) (Chain.worldAfter P (textSetup G ts) (Chain.succeeded P (steps G ts))) := by
    intro a s hs
    rw [(Chain.inv P (textSetup G ts) (Chain.succeeded P (steps G ts))).world] at hs
    unfold Chain.worldOf at hs
    unfold partyAt
    cases hq : textSetup G ts a with
    | none => rw [hq] at hs; cases hs
    | some k =>
      rw [hq] at hs
      simp only [Option.map_some, Option.some.injEq] at hs
      subst hs
      cases k <;> rfl
  rw [h1]
  have hs := exec_same (P := P) hG hX (σ := fun a => ((Chain.worldAfter P (textSetup G ts)
    (Chain.succeeded P (steps G ts))) a).map party) (fun _ => rfl) hw ht (says_partial hk t ht)
  cases hq : execText G P (Chain.worldAfter P (textSetup G ts) (Chain.succeeded P (steps G ts))) t with
  | error e =>
    cases hp : Chain.exec P (Chain.worldAfter P (textSetup G ts) (Chain.succeeded P (steps G ts)))
        (meaning G (textSetup G ts) t) with
    | error e' => simp
    | ok y => rw [hq, hp] at hs; exact hs.elim
  | ok y =>
    cases hp : Chain.exec P (Chain.worldAfter P (textSetup G ts) (Chain.succeeded P (steps G ts)))
        (meaning G (textSetup G ts) t) with
    | error e' => rw [hq, hp] at hs; exact hs.elim
    | ok z =>
      rw [hq, hp] at hs
      obtain ⟨w1, es⟩ := y
      obtain ⟨w1', es'⟩ := z
      obtain ⟨rfl, rfl, -⟩ := hs
      rfl

/-- a text that the verifier took for a vote is a call of the verifier -/
theorem taken_call (hG : Sound G) (hX : ∀ b, IsBytes (P.X.keccak b)) (ts : List TextStep) (hb : ∀ s ∈ ts, StepInRange s)
    (ha : TextApart G ts) {V : Addr} {vc : VV.Config} (hV : textSetup G ts V = some (.verifier vc)) {a : Addr} {text : Str}
    {height : Nat} (h : TextTaken G P ts a V text height) {msg : VV.Msg}
    (hm : readFor G .verifier text = some (.verifier msg)) :
    ∃ e ∈ Chain.log P (textSetup G ts) (Chain.succeeded P (steps G ts)), e.p.target = V ∧
      ∃ c r, e.act = .verifier c r ∧ c.sender = a ∧ c.msg = msg ∧ c.height < height := by
  obtain ⟨us, t, vs, funds, rfl, rfl, hmem, hh, ⟨w', es⟩, hx⟩ := h
  have hbu : ∀ s ∈ us, StepInRange s := fun s hs => hb s (List.mem_append_left _ hs)
  have hau := textApart_prefix ha
  have htm : TextStep.tx t ∈ us ++ .tx t :: vs := by simp
  have hin : InRange t := hb _ htm
  have hx' := (exec_after hG hX us hbu hau t hin).mp hx
  have hacc : t.accepts V = false := (ha t htm V (by rw [hV]; simp)).2
  have hrun := hx'
  unfold Chain.exec at hrun
  split at hrun
  · simp at hrun
  · obtain ⟨e, he, hp⟩ := Chain.run_carries _ hrun ⟨t.sender, V, funds, meant G (textSetup G us) V text⟩ (by
      refine List.mem_map.mpr ⟨(V, funds, meant G (textSetup G us) V text), ?_, rfl⟩
      exact List.mem_map.mpr ⟨(V, funds, text), hmem, rfl⟩) hacc
    have hi := Chain.inv P (textSetup G us) (Chain.succeeded P (steps G us) ++ [meaning G (textSetup G us) t])
    have hl := (Chain.log_snoc hx').2
    have het : e.p.target = V := by rw [hp]
    obtain ⟨l₁, l₂, hsplit⟩ := List.append_of_mem he
    obtain ⟨vcu, hVu⟩ : ∃ k, textSetup G us V = some k := by
      obtain ⟨-, b, reply, s', hc⟩ := hi.genuine (Chain.log P (textSetup G us) (Chain.succeeded P (steps G us)) ++ l₁) e l₂
        (by rw [hl, hsplit]; simp)
      cases hk : textSetup G us V with
      | some k => exact ⟨k, rfl⟩
      | none => simp [Chain.call, Chain.worldOf, het, hk] at hc
    have hkk := textSetup_mono us (.tx t :: vs) hVu
    rw [hV] at hkk
    simp only [Option.some.injEq] at hkk
    subst hkk
    have hvalid := (C105_history (P := P) hG hX us hbu hau).2.2.2.2 _ _ hVu
    obtain ⟨c, r, a1, a2, a3, -⟩ := hi.verifier_call (l₁ := Chain.log P (textSetup G us) (Chain.succeeded P (steps G us)) ++ l₁)
      (e := e) (l₂ := l₂) (by rw [hl, hsplit]; simp) hvalid (by rw [het]; exact hVu)
    have a4 := Chain.run_height _ hrun e he c r a1
    have hmeant : meant G (textSetup G us) V text = .verifier msg := by
      unfold meant
      rw [hVu]
      change (match readFor G .verifier text with | some m => m | none => noise .verifier) = _
      rw [hm]
    rw [hp] at a2 a3
    dsimp only at a2 a3
    rw [hmeant] at a3
    simp only [Chain.Msg.verifier.injEq] at a3
    -- the entry is in the log of the history
    have hlog : e ∈ textDeployedLog G P (us ++ .tx t :: vs) := by
      unfold textDeployedLog
      rw [outs_append, outs_cons_ok _ (show stepText G P (runCalls (stepText G P) Chain.nothing us) (.tx t) = .ok (w', es) from hx)]
      simp [he]
    have hbl : e.blind ∈ (Chain.log P (textSetup G (us ++ .tx t :: vs))
        (Chain.succeeded P (steps G (us ++ .tx t :: vs)))).map Entry.blind := by
      rw [← (C105_history (P := P) hG hX _ hb ha).2.1]
      exact List.mem_map_of_mem hlog
    obtain ⟨e', he', hbe⟩ := List.mem_map.mp hbl
    obtain ⟨b1, c', b2, b3, b4, b5⟩ := Chain.blind_verifier hbe a1
    exact ⟨e', he', by rw [b1]; exact het, c', r, b2, by rw [b4, a2], by rw [b5, ← a3], by rw [b3, a4]; exact hh⟩

/-- the transactions that succeeded come in the order of their blocks -/
theorem succeeded_inOrder {ts : List TextStep} (h : TextInOrder ts) : Chain.InOrder (Chain.succeeded P (steps G ts)) := by
  have key : ∀ (σ : Setup) (l : List TextStep) (w : Chain.World),
      List.Sublist (((outs (Chain.stepExec P) w (l.filterMap (stepMeaning G σ))).filterMap (fun e => e.1.tx?)).map
        (fun t : Tx => t.block.height)) (l.filterMap TextStep.height?) := by
    intro σ l
    induction l with
    | nil => intro w; exact List.Sublist.refl _
    | cons s t ih =>
      intro w
      cases s with
      | tx x =>
        simp only [List.filterMap_cons, stepMeaning, TextStep.height?]
        cases hq : Chain.stepExec P w (.tx (meaning G σ x)) with
        | error e => rw [outs_cons_error _ hq]; exact (ih w).cons _
        | ok y =>
          obtain ⟨w', es⟩ := y
          rw [outs_cons_ok _ hq]
          exact (ih w').cons_cons _
      | found a p hh text =>
        simp only [List.filterMap_cons, stepMeaning, TextStep.height?, founding]
        cases ho : readOrder G p text with
        | none => exact ih w
        | some o =>
          simp only [Option.map_some]
          cases hq : Chain.stepExec P w (.found a (o.kind hh)) with
          | error e => rw [outs_cons_error _ hq]; exact ih w
          | ok y =>
            obtain ⟨w', es⟩ := y
            rw [outs_cons_ok _ hq]
            exact ih w'
  exact List.Pairwise.sublist (key _ ts Chain.nothing) h

end Amp.Wire
