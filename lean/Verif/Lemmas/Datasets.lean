import Verif.Spec.Datasets
import Verif.Lemmas.OMap
/- Lemmas for the keyed datasets. -/
namespace USiem
open Spec

theorem foldlM_ret {U D : Type} (next : D → U → Exec D) (step : D → U → D) (h : ∀ d u, next d u = .ret (step d u))
    (us : List U) : ∀ d, us.foldlM next d = .ret (us.foldl step d) := by
  induction us with
  | nil => intro d; rfl
  | cons u t ih => intro d; simp only [List.foldlM_cons, h, Exec.ret_bind, ih, List.foldl_cons]

theorem applyBatch_ret {U D : Type} (first next : D → U → Exec D) (step : D → U → D)
    (h1 : ∀ d u, first d u = .ret (step d u)) (h : ∀ d u, next d u = .ret (step d u)) (us : List U) (hne : us ≠ []) (d : D) :
    applyBatch first next d us = .ret (us.foldl step d) := by
  cases us with
  | nil => exact absurd rfl hne
  | cons u t => simp only [applyBatch, h1, Exec.ret_bind, foldlM_ret next step h, List.foldl_cons]

theorem foldl_lastWins {U D W : Type} (step : D → U → D) (obs : D → W) (says : U → Option W)
    (h : ∀ d u, obs (step d u) = (says u).getD (obs d)) (us : List U) (d : D) :
    LastWins says us (obs d) (obs (us.foldl step d)) := by
  have none_case : ∀ (us : List U) (d : D), (∀ u ∈ us, says u = none) → obs (us.foldl step d) = obs d := by
    intro us
    induction us with
    | nil => intro d _; rfl
    | cons u t ih =>
      intro d hn
      rw [List.foldl_cons, ih _ (fun x hx => hn x (List.mem_cons_of_mem _ hx)), h, hn u (List.mem_cons_self ..)]; rfl
  refine ⟨?_, none_case us d⟩
  intro pre u post w hus hw hp
  subst hus
  rw [List.foldl_append, List.foldl_cons, none_case _ _ hp, h, hw]; rfl

/-- Splitting a batch. -/
theorem applyBatch_append {U D : Type} (first next : D → U → Exec D) (h : ∀ d u, first d u = next d u) (us vs : List U)
    (hu : us ≠ []) (hv : vs ≠ []) (d : D) :
    applyBatch first next d (us ++ vs) = applyBatch first next d us >>= fun d' => applyBatch first next d' vs := by
  cases us with
  | nil => exact absurd rfl hu
  | cons u t =>
    cases vs with
    | nil => exact absurd rfl hv
    | cons v w =>
      simp only [List.cons_append, applyBatch, bind_assoc]
      congr 1; funext d1
      rw [List.foldlM_append]
      congr 1; funext d2
      simp only [List.foldlM_cons, h]

/-! ### Channel runs -/

section
variable {C U : Type} (call : Chan U → C → Option (Chan U)) (submits : C → U)

/-- What the calls of the code do: append if there is room, otherwise nothing. -/
def Offers : Prop := ∀ c x c', call c x = some c' →
  (HasRoom c → c' = { c with queue := c.queue ++ [submits x] }) ∧ (¬ HasRoom c → c' = c)

theorem events_fifo (ho : Offers call submits) (es : List (ChanEvent C)) :
    ∀ (c c' : Chan U) (got : List U), runEvents call c es = some (c', got) →
      ∃ acc lost, Accepted call submits c es acc ∧ c.queue ++ acc = got ++ lost ++ c'.queue ∧
        (ChanEvent.dropReceiver ∉ es → lost = []) ∧ (ChanEvent.dropReceiver ∈ es → c'.connected = false ∧ c'.queue = []) ∧
        (ChanEvent.dropReceiver ∉ es → c'.connected = c.connected) ∧
        (c.connected = false → c'.connected = false) ∧ c'.cap = c.cap ∧
        (c.connected = false → c.queue = [] → c'.queue = []) ∧
        (c.queue.length ≤ c.cap → c'.queue.length ≤ c'.cap) := by
  induction es with
  | nil =>
    intro c c' got h
    simp only [runEvents, Option.some.injEq, Prod.mk.injEq] at h
    obtain ⟨rfl, rfl⟩ := h
    exact ⟨[], [], .nil c, by simp, by simp, by simp, by simp, by simp, rfl, fun _ h => h, id⟩
  | cons e es ih =>
    intro c c' got h
    cases e with
    | call x =>
      simp only [runEvents, Option.bind_eq_some_iff] at h
      obtain ⟨c1, h1, h2⟩ := h
      obtain ⟨acc, lost, ha, hq, hl, hd, hd', hc, hcap, hq0, hle⟩ := ih _ _ _ h2
      obtain ⟨hr, hn⟩ := ho c x c1 h1
      by_cases hroom : HasRoom c
      · have := hr hroom; subst this
        refine ⟨submits x :: acc, lost, .taken hroom h1 ha, ?_, ?_, ?_, ?_, ?_, ?_, ?_, ?_⟩
        · simpa using hq
        · simpa using hl
        · simpa using hd
        · simpa using hd'
        · simpa using hc
        · simpa using hcap
        · intro hcc; rw [hroom.1] at hcc; cases hcc
        · intro _; apply hle; have := hroom.2; simp; omega
      · have := hn hroom; subst this
        refine ⟨acc, lost, .dropped hroom h1 ha, hq, ?_, ?_, ?_, hc, hcap, hq0, hle⟩
        · simpa using hl
        · simpa using hd
        · simpa using hd'
    | recv =>
      simp only [runEvents] at h
      cases hq0 : c.queue with
      | nil =>
        have ht : c.tryRecv = (c, none) := by simp [Chan.tryRecv, hq0]
        rw [ht] at h
        obtain ⟨acc, lost, ha, hq, hl, hd, hd', hc, hcap, hq1, hle⟩ := ih _ _ _ h
        rw [hq0] at hq hq1 hle
        refine ⟨acc, lost, .recv (by rw [ht]; exact ha), hq, by simpa using hl, by simpa using hd, by simpa using hd', hc, hcap, hq1, hle⟩
      | cons m q =>
        have ht : c.tryRecv = ({ c with queue := q }, some m) := by simp [Chan.tryRecv, hq0]
        rw [ht] at h
        simp only [Option.map_eq_some_iff, Prod.mk.injEq, Prod.exists] at h
        obtain ⟨c2, got2, h2, rfl, rfl⟩ := h
        obtain ⟨acc, lost, ha, hq, hl, hd, hd', hc, hcap, hq1, hle⟩ := ih _ _ _ h2
        refine ⟨acc, lost, .recv (by rw [ht]; exact ha), by simpa using hq, by simpa using hl, by simpa using hd,
          by simpa using hd', hc, hcap, by simp, ?_⟩
        intro hlen; apply hle; simp at hlen ⊢; omega
    | dropReceiver =>
      simp only [runEvents] at h
      obtain ⟨acc, lost, ha, hq, hl, hd, hd', hc, hcap, hq1, hle⟩ := ih _ _ _ h
      have hcon : c'.connected = false := hc rfl
      have hqe : c'.queue = [] := hq1 rfl rfl
      have acc_nil : acc = [] ∧ got = [] := by
        clear hl hd hd' hle hcap hq1 hc hcon hqe hq ih
        generalize hg : c.dropReceiver = c1 at h ha
        have h1 : c1.connected = false := by rw [← hg]; rfl
        have h2 : c1.queue = [] := by rw [← hg]; rfl
        clear hg
        constructor
        · induction ha with
          | nil => rfl
          | taken hr => rw [hr.1] at h1; cases h1
          | @dropped c3 c4 x es us hr hcall _ ih =>
            have := (ho _ _ _ hcall).2 hr; subst this
            simp only [runEvents, hcall, Option.bind_some] at h
            exact ih h h1 h2
          | @recv c3 es us _ ih =>
            have ht : c3.tryRecv = (c3, none) := by simp [Chan.tryRecv, h2]
            simp only [runEvents, ht] at h
            rw [ht] at ih
            exact ih h h1 h2
          | @gone c3 es us _ ih =>
            simp only [runEvents] at h
            exact ih h rfl rfl
        · clear ha
          induction es generalizing c1 got with
          | nil => simp only [runEvents, Option.some.injEq, Prod.mk.injEq] at h; exact h.2.symm
          | cons e es ih =>
            cases e with
            | call x =>
              simp only [runEvents, Option.bind_eq_some_iff] at h
              obtain ⟨c4, hcall, h3⟩ := h
              have : ¬ HasRoom c1 := by intro hr; rw [hr.1] at h1; cases h1
              have := (ho _ _ _ hcall).2 this; subst this
              exact ih _ _ h3 h1 h2
            | recv =>
              have ht : c1.tryRecv = (c1, none) := by simp [Chan.tryRecv, h2]
              simp only [runEvents, ht] at h
              exact ih _ _ h h1 h2
            | dropReceiver =>
              simp only [runEvents] at h
              exact ih _ _ h rfl rfl
      obtain ⟨rfl, rfl⟩ := acc_nil
      refine ⟨[], c.queue, .gone ha, by simp [hqe], by simp, fun _ => ⟨hcon, hqe⟩, by simp, fun _ => hcon, hcap, fun _ _ => hqe, ?_⟩
      intro _; simp [hqe]

theorem accepted_sublist {c : Chan U} {es : List (ChanEvent C)} {us : List U} (h : Accepted call submits c es us) :
    us.Sublist (submitted submits es) := by
  induction h with
  | nil => exact List.Sublist.refl _
  | taken _ _ _ ih => exact ih.cons_cons _
  | dropped _ _ _ ih => exact ih.cons _
  | recv _ ih => exact ih
  | gone _ ih => exact ih

end

theorem trySend_spec {U : Type} (c : Chan U) (u : U) :
    (HasRoom c → (c.trySend u) = ({ c with queue := c.queue ++ [u] }, .ok ())) ∧
    (¬ HasRoom c → (c.trySend u).1 = c ∧
      (c.trySend u).2 = .error (if c.connected then .full u else .disconnected u)) := by
  unfold HasRoom Chan.trySend
  cases hc : c.connected <;> simp
  by_cases h : c.queue.length < c.cap <;> simp [h]

theorem synCall_offers {A R D : Type} : Offers (SynCall.run (A := A) (R := R) (D := D)) SynCall.submits := by
  intro c x c' h
  cases x with
  | insert a =>
    simp only [SynCall.run, synInsert, Option.some.injEq, SynCall.submits] at h ⊢
    obtain ⟨h1, h2⟩ := trySend_spec c (Update.add a)
    subst h
    exact ⟨fun hr => by rw [h1 hr], fun hr => (h2 hr).1⟩
  | remove a =>
    simp only [SynCall.run, synRemove, Option.some.injEq, SynCall.submits] at h ⊢
    obtain ⟨h1, h2⟩ := trySend_spec c (Update.remove a)
    subst h
    exact ⟨fun hr => by rw [h1 hr], fun hr => (h2 hr).1⟩
  | update a =>
    simp only [SynCall.run, synUpdate, Option.some.injEq, SynCall.submits] at h ⊢
    obtain ⟨h1, h2⟩ := trySend_spec c (Update.replace a)
    subst h
    exact ⟨fun hr => by rw [h1 hr], fun hr => (h2 hr).1⟩
  | fullUpdate a =>
    simp only [SynCall.run, geoFullUpdate, SynCall.submits, Chan.send] at h ⊢
    unfold HasRoom
    cases hc : c.connected
    · simp [hc] at h; subst h; simp
    · by_cases hl : c.queue.length < c.cap <;> simp [hc, hl] at h
      subst h; simp [hl]

theorem rulesCall_offers : Offers RulesCall.run RulesCall.submits := by
  intro c x c' h
  cases x with
  | insert a =>
    simp only [RulesCall.run, rulesInsert, RulesCall.submits, Chan.send] at h ⊢
    unfold HasRoom
    cases hc : c.connected
    · simp [hc] at h; subst h; simp
    · by_cases hl : c.queue.length < c.cap <;> simp [hc, hl] at h
      subst h; simp [hl]
  | tryInsert a =>
    simp only [RulesCall.run, rulesTryInsert, Option.some.injEq, RulesCall.submits] at h ⊢
    obtain ⟨h1, h2⟩ := trySend_spec c (Update.add a : RulesDataset.Upd)
    subst h
    constructor
    · intro hr; rw [h1 hr]
    · intro hr
      obtain ⟨h3, h4⟩ := h2 hr
      cases hc : c.connected
      · rw [hc] at h4
        have : c.trySend (Update.add a) = (c, .error (.disconnected (Update.add a))) := Prod.ext h3 (by simpa using h4)
        rw [this]
      · rw [hc] at h4
        have : c.trySend (Update.add a) = (c, .error (.full (Update.add a))) := Prod.ext h3 (by simpa using h4)
        rw [this]

end USiem
