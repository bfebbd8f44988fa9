import Verif.Lemmas.Datasets
/- Properties C20 (keyed datasets are maps), C21 (batches), C22 (update channel). -/
namespace USiem.Props
open Spec

/-! ### C20 -/

theorem ipMap_get_insert {V : Type} (d : IpMap V) (ip k : SiemIp) (v : V) :
    (d.insert ip v).get k = if ip = k then some v else d.get k := by
  cases ip <;> cases k <;> simp [IpMap.insert, IpMap.get, OMap.get?_insert]

theorem ipMap_get_remove {V : Type} (d : IpMap V) (ip k : SiemIp) :
    (d.remove ip).get k = if ip = k then none else d.get k := by
  cases ip <;> cases k <;> simp [IpMap.remove, IpMap.get, OMap.get?_erase]

theorem ipSet_contains_insert (d : IpSet) (ip k : SiemIp) :
    (d.insert ip).contains k = if ip = k then true else d.contains k := by
  cases ip <;> cases k <;> simp only [IpSet.insert, IpSet.contains, OSet.mem_insert, SiemIp.v4.injEq, SiemIp.v6.injEq,
    reduceCtorEq, if_false]
  all_goals first
    | rfl
    | rename_i a b
      by_cases h : a = b
      · subst h; simp
      · simp [h, Ne.symm h]

theorem ipSet_contains_remove (d : IpSet) (ip k : SiemIp) :
    (d.remove ip).contains k = if ip = k then false else d.contains k := by
  cases ip <;> cases k <;> simp only [IpSet.remove, IpSet.contains, OSet.mem_erase, SiemIp.v4.injEq, SiemIp.v6.injEq,
    reduceCtorEq, if_false]
  all_goals first
    | rfl
    | rename_i a b
      by_cases h : a = b
      · subst h; simp
      · simp [h, Ne.symm h]

/-- IP maps (text values and list values alike): applying a non-empty list of updates never panics and gives every address
what the last update concerning it says, or leaves it as it was. The new handle keeps the channel. -/
theorem C20_ip_map {V : Type} (s : Syn (IpMap V)) (us : List (IpMap.Upd V)) (hne : us ≠ []) :
    ∃ s', ipMapApplyUpdates s us = .ret s' ∧ s'.comm = s.comm ∧
      ∀ k, LastWins (ipMapSays · k) us (ipMapSynGet s k) (ipMapSynGet s' k) := by
  let step : IpMap V → IpMap.Upd V → IpMap V := fun d u =>
    match u with
    | .add (a, b) => d.insert a b
    | .remove v => d.remove v
    | .replace v => v
  have h := applyBatch_ret IpMap.applyFirst IpMap.applyNext step (fun d u => by cases u <;> rfl)
    (fun d u => by cases u <;> rfl) us hne s.dataset
  refine ⟨⟨us.foldl step s.dataset, s.comm⟩, by simp only [ipMapApplyUpdates, h, Exec.ret_bind, Exec.pure_eq], rfl, fun k => ?_⟩
  refine foldl_lastWins step (fun d => d.get k) (ipMapSays · k) ?_ us s.dataset
  intro d u
  cases u with
  | add a => obtain ⟨a, b⟩ := a; simp only [step, ipMap_get_insert, ipMapSays]; split <;> rfl
  | remove a => simp only [step, ipMap_get_remove, ipMapSays]; split <;> rfl
  | replace a => rfl

/-- IP sets. -/
theorem C20_ip_set (s : Syn IpSet) (us : List IpSet.Upd) (hne : us ≠ []) :
    ∃ s', ipSetApplyUpdates s us = .ret s' ∧ s'.comm = s.comm ∧
      ∀ k, LastWins (ipSetSays · k) us (ipSetSynContains s k) (ipSetSynContains s' k) := by
  let step : IpSet → IpSet.Upd → IpSet := fun d u =>
    match u with
    | .add a => d.insert a
    | .remove v => d.remove v
    | .replace v => v
  have h := applyBatch_ret IpSet.applyFirst IpSet.applyNext step (fun d u => by cases u <;> rfl)
    (fun d u => by cases u <;> rfl) us hne s.dataset
  refine ⟨⟨us.foldl step s.dataset, s.comm⟩, by simp only [ipSetApplyUpdates, h, Exec.ret_bind, Exec.pure_eq], rfl, fun k => ?_⟩
  refine foldl_lastWins step (fun d => d.contains k) (ipSetSays · k) ?_ us s.dataset
  intro d u
  cases u with
  | add a => simp only [step, ipSet_contains_insert, ipSetSays]; split <;> rfl
  | remove a => simp only [step, ipSet_contains_remove, ipSetSays]; split <;> rfl
  | replace a => rfl

/-- Text maps. -/
theorem C20_text_map (s : Syn (TextMap Str)) (us : List (TextMap.Upd Str)) (hne : us ≠ []) :
    ∃ s', textMapApplyUpdates s us = .ret s' ∧ s'.comm = s.comm ∧
      ∀ k, LastWins (textMapSays · k) us (textMapSynGet s k) (textMapSynGet s' k) := by
  let step : TextMap Str → TextMap.Upd Str → TextMap Str := fun d u =>
    match u with
    | .add (a, b) => d.insert a b
    | .remove v => d.remove v
    | .replace v => v
  have h := applyBatch_ret TextMap.applyFirst TextMap.applyNext step (fun d u => by cases u <;> rfl)
    (fun d u => by cases u <;> rfl) us hne s.dataset
  refine ⟨⟨us.foldl step s.dataset, s.comm⟩, by simp only [textMapApplyUpdates, h, Exec.ret_bind, Exec.pure_eq], rfl, fun k => ?_⟩
  refine foldl_lastWins step (fun d => d.get k) (textMapSays · k) ?_ us s.dataset
  intro d u
  cases u with
  | add a =>
    obtain ⟨a, b⟩ := a
    simp only [step, TextMap.insert, TextMap.get, OMap.get?_insert, textMapSays]; split <;> rfl
  | remove a => simp only [step, TextMap.remove, TextMap.get, OMap.get?_erase, textMapSays]; split <;> rfl
  | replace a => rfl

/-- Rules, known by name. -/
theorem C20_rules (s : Syn RulesDataset) (us : List RulesDataset.Upd) (hne : us ≠ []) :
    ∃ s', rulesApplyUpdates s us = .ret s' ∧ s'.comm = s.comm ∧
      ∀ k, LastWins (rulesSays · k) us (rulesSynGet s k) (rulesSynGet s' k) := by
  let step : RulesDataset → RulesDataset.Upd → RulesDataset := fun d u =>
    match u with
    | .add a => d.insert a
    | .remove v => d.remove v
    | .replace v => v
  have h := applyBatch_ret RulesDataset.applyFirst RulesDataset.applyNext step (fun d u => by cases u <;> rfl)
    (fun d u => by cases u <;> rfl) us hne s.dataset
  refine ⟨⟨us.foldl step s.dataset, s.comm⟩, by simp only [rulesApplyUpdates, h, Exec.ret_bind, Exec.pure_eq], rfl, fun k => ?_⟩
  refine foldl_lastWins step (fun d => d.get k) (rulesSays · k) ?_ us s.dataset
  intro d u
  cases u with
  | add a => simp only [step, RulesDataset.insert, RulesDataset.get, OMap.get?_insert, rulesSays]; split <;> rfl
  | remove a => simp only [step, RulesDataset.remove, RulesDataset.get, OMap.get?_erase, rulesSays]; split <;> rfl
  | replace a => rfl

/-- Direct edits of a text set and of a text list map (which have no batch function): the last insertion wins. -/
theorem C20_text_set_insert (d : TextSet) (vs : List Str) (k : Str) :
    (vs.foldl TextSet.insert d).contains k = true ↔ k ∈ vs ∨ d.contains k = true := by
  induction vs generalizing d with
  | nil => simp
  | cons v t ih =>
    rw [List.foldl_cons, ih]
    simp only [TextSet.insert, TextSet.contains, decide_eq_true_eq, OSet.mem_insert, List.mem_cons]
    constructor
    · rintro (h | h | h) <;> simp [h]
    · rintro ((h | h) | h) <;> simp [h]

theorem C20_text_map_list_insert (d : TextMap (List Str)) (vs : List (Str × List Str)) (k : Str) :
    LastWins (fun (e : Str × List Str) => if e.1 = k then some (some e.2) else none) vs (d.get k)
      ((vs.foldl (fun d e => d.insert e.1 e.2) d).get k) := by
  refine foldl_lastWins (fun d (e : Str × List Str) => d.insert e.1 e.2) (fun d => d.get k) _ ?_ vs d
  intro d e
  simp only [TextMap.insert, TextMap.get, OMap.get?_insert]; split <;> rfl

/-- What the claim does not say: an empty list of updates panics (`unwrap` on an empty iterator), in all four datasets. -/
theorem C20_empty_batch_panics (s : Syn (IpMap Str)) (s1 : Syn (IpMap (List Str))) (s2 : Syn IpSet) (s3 : Syn (TextMap Str))
    (s4 : Syn RulesDataset) :
    ipMapApplyUpdates s [] = .panic ∧ ipMapApplyUpdates s1 [] = .panic ∧ ipSetApplyUpdates s2 [] = .panic ∧
    textMapApplyUpdates s3 [] = .panic ∧ rulesApplyUpdates s4 [] = .panic := ⟨rfl, rfl, rfl, rfl, rfl⟩

/-- Non-vacuity: a history with an addition, a replacement, a removal and another addition. -/
example : ∃ s', ipMapApplyUpdates ⟨IpMap.new.insert (.v4 1) (chars% "old"), 0⟩
      [.add (.v4 2, chars% "a"), .replace (IpMap.new.insert (.v4 3) (chars% "r")), .remove (.v4 3), .add (.v6 2, chars% "b")]
      = .ret s' ∧ ipMapSynGet s' (.v4 1) = none ∧ ipMapSynGet s' (.v4 2) = none ∧ ipMapSynGet s' (.v4 3) = none ∧
      ipMapSynGet s' (.v6 2) = some (chars% "b") := ⟨_, rfl, rfl, rfl, rfl, rfl⟩

/-! ### C21 -/

/-- Applying a batch equals applying any split of it as two consecutive batches (both non-empty, since an empty one panics). -/
theorem C21_ip_map {V : Type} (s : Syn (IpMap V)) (us vs : List (IpMap.Upd V)) (hu : us ≠ []) (hv : vs ≠ []) :
    ipMapApplyUpdates s (us ++ vs) = ipMapApplyUpdates s us >>= fun s' => ipMapApplyUpdates s' vs := by
  unfold ipMapApplyUpdates
  rw [applyBatch_append _ _ (fun d u => by cases u <;> rfl) us vs hu hv]
  simp only [bind_assoc, Exec.pure_eq, Exec.ret_bind]

theorem C21_ip_set (s : Syn IpSet) (us vs : List IpSet.Upd) (hu : us ≠ []) (hv : vs ≠ []) :
    ipSetApplyUpdates s (us ++ vs) = ipSetApplyUpdates s us >>= fun s' => ipSetApplyUpdates s' vs := by
  unfold ipSetApplyUpdates
  rw [applyBatch_append _ _ (fun d u => by cases u <;> rfl) us vs hu hv]
  simp only [bind_assoc, Exec.pure_eq, Exec.ret_bind]

theorem C21_text_map (s : Syn (TextMap Str)) (us vs : List (TextMap.Upd Str)) (hu : us ≠ []) (hv : vs ≠ []) :
    textMapApplyUpdates s (us ++ vs) = textMapApplyUpdates s us >>= fun s' => textMapApplyUpdates s' vs := by
  unfold textMapApplyUpdates
  rw [applyBatch_append _ _ (fun d u => by cases u <;> rfl) us vs hu hv]
  simp only [bind_assoc, Exec.pure_eq, Exec.ret_bind]

theorem C21_rules (s : Syn RulesDataset) (us vs : List RulesDataset.Upd) (hu : us ≠ []) (hv : vs ≠ []) :
    rulesApplyUpdates s (us ++ vs) = rulesApplyUpdates s us >>= fun s' => rulesApplyUpdates s' vs := by
  unfold rulesApplyUpdates
  rw [applyBatch_append _ _ (fun d u => by cases u <;> rfl) us vs hu hv]
  simp only [bind_assoc, Exec.pure_eq, Exec.ret_bind]

/-- Any way of cutting a history in non-empty batches gives the same dataset. -/
theorem C21_any_partition {V : Type} (s : Syn (IpMap V)) (b : List (IpMap.Upd V)) (bs : List (List (IpMap.Upd V)))
    (hb : b ≠ []) (hbs : ∀ x ∈ bs, x ≠ []) :
    ipMapApplyUpdates s (b :: bs).flatten = (b :: bs).foldlM ipMapApplyUpdates s := by
  have key : ∀ (bs : List (List (IpMap.Upd V))) (s : Syn (IpMap V)), bs ≠ [] → (∀ x ∈ bs, x ≠ []) →
      ipMapApplyUpdates s bs.flatten = bs.foldlM ipMapApplyUpdates s := by
    intro bs
    induction bs with
    | nil => intro s h; exact absurd rfl h
    | cons x t ih =>
      intro s _ hx
      cases t with
      | nil => simp only [List.flatten_cons, List.flatten_nil, List.append_nil, List.foldlM_cons, List.foldlM_nil, bind_pure]
      | cons y t =>
        have hne : (y :: t).flatten ≠ [] := by
          have := hx y (by simp)
          cases y with
          | nil => exact absurd rfl this
          | cons a z => simp
        rw [List.flatten_cons, C21_ip_map _ _ _ (hx x (by simp)) hne, List.foldlM_cons]
        congr 1; funext s'
        exact ih s' (by simp) (fun z hz => hx z (List.mem_cons_of_mem _ hz))
  exact key _ _ (by simp) (by intro x hx; exact (List.mem_cons.1 hx).elim (fun h => h ▸ hb) (hbs x))

example : ∃ s' : Syn IpSet, ipSetApplyUpdates ⟨IpSet.new, 0⟩ ([.add (.v4 1)] ++ [.remove (.v4 1), .add (.v6 7)]) = .ret s' ∧
    ipSetSynContains s' (.v4 1) = false ∧ ipSetSynContains s' (.v6 7) = true := ⟨_, rfl, rfl, rfl⟩

/-! ### C22 -/

/-- Every interleaving of `insert`, `remove`, `update` and `full_update` calls by any number of producers with the owner
of the channel (text maps and sets, IP maps and sets, networks, calendar, geo-IP): what the owner received followed by what is
still queued is exactly the accepted updates in submission order (each once); those are the submitted updates whose call found
the channel open and with room, in order; and if the owner went away, what it received is still a prefix of that. The queue
never exceeds the capacity. -/
theorem C22_fifo {A R D : Type} (cap : Nat) (es : List (ChanEvent (SynCall A R D))) (c : Chan (Update A R D))
    (received : List (Update A R D)) (h : runEvents SynCall.run (Chan.bounded cap) es = some (c, received)) :
    ∃ accepted, Accepted SynCall.run SynCall.submits (Chan.bounded cap) es accepted ∧
      accepted.Sublist (submitted SynCall.submits es) ∧
      received ++ c.queue <+: accepted ∧
      (ChanEvent.dropReceiver ∉ es → received ++ c.queue = accepted) ∧ c.queue.length ≤ cap := by
  obtain ⟨acc, lost, ha, hq, hl, hd, _, _, hcap, _, hle⟩ := events_fifo _ _ synCall_offers es _ _ _ h
  refine ⟨acc, ha, accepted_sublist _ _ ha, ?_, ?_, ?_⟩
  · by_cases hdr : ChanEvent.dropReceiver ∈ es
    · have := (hd hdr).2
      simp only [Chan.bounded, List.nil_append] at hq
      rw [hq, this]; simp
    · have := hl hdr; subst this
      simp only [Chan.bounded, List.nil_append, List.append_nil] at hq
      exact ⟨[], by simpa using hq.symm⟩
  · intro hdr
    have := hl hdr; subst this
    simp only [Chan.bounded, List.nil_append, List.append_nil] at hq
    exact hq.symm
  · have := hle (by simp [Chan.bounded])
    rw [hcap] at this; exact this

/-- The same for the rules dataset (`insert` waits for room, `try_insert` does not). -/
theorem C22_rules_fifo (cap : Nat) (es : List (ChanEvent RulesCall)) (c : Chan RulesDataset.Upd)
    (received : List RulesDataset.Upd) (h : runEvents RulesCall.run (Chan.bounded cap) es = some (c, received)) :
    ∃ accepted, Accepted RulesCall.run RulesCall.submits (Chan.bounded cap) es accepted ∧
      accepted.Sublist (submitted RulesCall.submits es) ∧
      received ++ c.queue <+: accepted ∧
      (ChanEvent.dropReceiver ∉ es → received ++ c.queue = accepted) ∧ c.queue.length ≤ cap := by
  obtain ⟨acc, lost, ha, hq, hl, hd, _, _, hcap, _, hle⟩ := events_fifo _ _ rulesCall_offers es _ _ _ h
  refine ⟨acc, ha, accepted_sublist _ _ ha, ?_, ?_, ?_⟩
  · by_cases hdr : ChanEvent.dropReceiver ∈ es
    · have := (hd hdr).2
      simp only [Chan.bounded, List.nil_append] at hq
      rw [hq, this]; simp
    · have := hl hdr; subst this
      simp only [Chan.bounded, List.nil_append, List.append_nil] at hq
      exact ⟨[], by simpa using hq.symm⟩
  · intro hdr
    have := hl hdr; subst this
    simp only [Chan.bounded, List.nil_append, List.append_nil] at hq
    exact hq.symm
  · have := hle (by simp [Chan.bounded])
    rw [hcap] at this; exact this

/-- A run never invents room: a blocking `insert` of a rule (and a blocking geo-IP `full_update`) ends exactly when the
channel has room or the owner is gone. -/
theorem C22_blocking_insert_waits (c : Chan RulesDataset.Upd) (r : SiemRule) :
    rulesInsert c r = none ↔ c.connected = true ∧ ¬ c.queue.length < c.cap := by
  unfold rulesInsert Chan.send
  cases hc : c.connected
  · simp
  · by_cases hl : c.queue.length < c.cap <;> simp [hl]

/-- `try_insert` of a rule: either it is queued at the end and the answer is Ok, or the channel is untouched and the very same
rule comes back. It never panics. -/
theorem C22_try_insert_returns_rule (c : Chan RulesDataset.Upd) (r : SiemRule) :
    (HasRoom c ∧ rulesTryInsert c r = ({ c with queue := c.queue ++ [.add r] }, .ret (.ok ()))) ∨
    (¬ HasRoom c ∧ rulesTryInsert c r = (c, .ret (.error r))) := by
  obtain ⟨h1, h2⟩ := trySend_spec c (Update.add r : RulesDataset.Upd)
  by_cases hr : HasRoom c
  · left; refine ⟨hr, ?_⟩; unfold rulesTryInsert; rw [h1 hr]
  · right; refine ⟨hr, ?_⟩
    obtain ⟨h3, h4⟩ := h2 hr
    unfold rulesTryInsert
    cases hc : c.connected
    · rw [hc] at h4
      have : c.trySend (Update.add r) = (c, .error (.disconnected (Update.add r))) := Prod.ext h3 (by simpa using h4)
      rw [this]; rfl
    · rw [hc] at h4
      have : c.trySend (Update.add r) = (c, .error (.full (Update.add r))) := Prod.ext h3 (by simpa using h4)
      rw [this]; rfl

/-- `insert_timeout`: whatever channel states its attempts meet, it never panics; `Ok` means that exactly the last attempt
queued the rule, at the end, once, and no earlier attempt changed the channel; `Err` hands the same rule back, no attempt
changed the channel, every attempt had failed and the deadline had passed. -/
theorem C22_insert_timeout (r : SiemRule) (env : List (Chan RulesDataset.Upd × Bool))
    (res : Exec (Except SiemRule Unit)) (after : List (Chan RulesDataset.Upd)) (h : rulesInsertTimeout r env = some (res, after)) :
    (∃ before c late rest, env = before ++ (c, late) :: rest ∧ (∀ e ∈ before, ¬ HasRoom e.1 ∧ e.2 = false) ∧ HasRoom c ∧
        res = .ret (.ok ()) ∧ after = before.map (·.1) ++ [{ c with queue := c.queue ++ [.add r] }]) ∨
    (∃ before c rest, env = before ++ (c, true) :: rest ∧ (∀ e ∈ before, ¬ HasRoom e.1 ∧ e.2 = false) ∧ ¬ HasRoom c ∧
        res = .ret (.error r) ∧ after = before.map (·.1) ++ [c]) := by
  induction env generalizing res after with
  | nil => simp [rulesInsertTimeout] at h
  | cons e env ih =>
    obtain ⟨c, late⟩ := e
    obtain ⟨h1, h2⟩ := trySend_spec c (Update.add r : RulesDataset.Upd)
    by_cases hr : HasRoom c
    · unfold rulesInsertTimeout at h
      rw [h1 hr] at h
      simp only [Option.some.injEq, Prod.mk.injEq] at h
      exact .inl ⟨[], c, late, env, rfl, by simp, hr, h.1.symm, by simpa using h.2.symm⟩
    · obtain ⟨h3, h4⟩ := h2 hr
      have hstep : rulesInsertTimeout r ((c, late) :: env) = if late then some (.ret (.error r), [c])
          else (rulesInsertTimeout r env).map fun p => (p.1, c :: p.2) := by
        conv => lhs; unfold rulesInsertTimeout
        cases hc : c.connected
        · rw [hc] at h4
          have : c.trySend (Update.add r) = (c, .error (.disconnected (Update.add r))) := Prod.ext h3 (by simpa using h4)
          rw [this]; rfl
        · rw [hc] at h4
          have : c.trySend (Update.add r) = (c, .error (.full (Update.add r))) := Prod.ext h3 (by simpa using h4)
          rw [this]; rfl
      rw [hstep] at h
      cases late with
      | true =>
        simp only [if_true, Option.some.injEq, Prod.mk.injEq] at h
        exact .inr ⟨[], c, env, rfl, by simp, hr, h.1.symm, by simpa using h.2.symm⟩
      | false =>
        simp only [Bool.false_eq_true, if_false, Option.map_eq_some_iff, Prod.mk.injEq, Prod.exists] at h
        obtain ⟨res', after', h5, rfl, rfl⟩ := h
        rcases ih res' after' h5 with ⟨b, c1, l, rest, he, hb, hroom, hres, haft⟩ | ⟨b, c1, rest, he, hb, hroom, hres, haft⟩
        · refine .inl ⟨(c, false) :: b, c1, l, rest, by rw [he]; rfl, ?_, hroom, hres, by rw [haft]; rfl⟩
          intro x hx; rcases List.mem_cons.1 hx with rfl | hx
          · exact ⟨hr, rfl⟩
          · exact hb x hx
        · refine .inr ⟨(c, false) :: b, c1, rest, by rw [he]; rfl, ?_, hroom, hres, by rw [haft]; rfl⟩
          intro x hx; rcases List.mem_cons.1 hx with rfl | hx
          · exact ⟨hr, rfl⟩
          · exact hb x hx

/-- A handle made by `empty()` drops every update: its channel never changes and nothing is ever received. -/
theorem C22_empty_drops {A R D : Type} (es : List (ChanEvent (SynCall A R D))) (c : Chan (Update A R D))
    (received : List (Update A R D)) (h : runEvents SynCall.run synEmptyChan es = some (c, received)) :
    received = [] ∧ c.queue = [] := by
  have h0 : runEvents SynCall.run (Chan.bounded 1) (.dropReceiver :: es) = some (c, received) := h
  obtain ⟨acc, ha, _, hp, _, _⟩ := C22_fifo 1 _ c received h0
  cases ha with
  | gone ha =>
    suffices acc = [] by
      subst this
      have := List.prefix_nil.1 hp
      simpa using this
    have gen : ∀ (es : List (ChanEvent (SynCall A R D))) (c1 : Chan (Update A R D)) (acc : List (Update A R D)),
        c1.connected = false → c1.queue = [] → Accepted SynCall.run SynCall.submits c1 es acc → acc = [] := by
      intro es c1 acc h1 h2 ha
      induction ha with
      | nil => rfl
      | taken hr => rw [hr.1] at h1; cases h1
      | @dropped c3 c4 x es us hr hcall _ ih =>
        have := (synCall_offers _ _ _ hcall).2 hr; subst this
        exact ih h1 h2
      | @recv c3 es us _ ih =>
        have ht : c3.tryRecv = (c3, none) := by simp [Chan.tryRecv, h2]
        rw [ht] at ih; exact ih h1 h2
      | gone _ ih => exact ih rfl rfl
    exact gen es _ acc rfl rfl ha

/-- End to end for an IP map: whatever the interleaving, if the owner applies what it received, cut in any non-empty batches,
then a reader of the new snapshot sees for every address what the last received update concerning it says; the old snapshot
is untouched (it is a value). What it received is a prefix of what was accepted, in submission order. -/
theorem C22_reader_sees_received {V : Type} (cap : Nat) (s : Syn (IpMap V))
    (es : List (ChanEvent (SynCall (SiemIp × V) SiemIp (IpMap V)))) (c : Chan (IpMap.Upd V)) (b : List (IpMap.Upd V))
    (bs : List (List (IpMap.Upd V))) (h : runEvents SynCall.run (Chan.bounded cap) es = some (c, (b :: bs).flatten))
    (hb : b ≠ []) (hbs : ∀ x ∈ bs, x ≠ []) :
    ∃ s' accepted, (b :: bs).foldlM ipMapApplyUpdates s = .ret s' ∧
      Accepted SynCall.run SynCall.submits (Chan.bounded cap) es accepted ∧ (b :: bs).flatten <+: accepted ∧
      ∀ k, LastWins (ipMapSays · k) (b :: bs).flatten (ipMapSynGet s k) (ipMapSynGet s' k) := by
  rw [← C21_any_partition s b bs hb hbs]
  obtain ⟨s', h1, _, h2⟩ := C20_ip_map s (b :: bs).flatten (by
    cases b with
    | nil => exact absurd rfl hb
    | cons a t => simp)
  obtain ⟨acc, ha, _, hp, _⟩ := C22_fifo cap es c _ h
  exact ⟨s', acc, h1, ha, (List.prefix_append _ _).trans hp, h2⟩

/-- Non-vacuity: capacity 1; the second update is dropped, the first and third arrive. -/
example : ∃ c, runEvents (SynCall.run (A := SiemIp) (R := SiemIp) (D := IpSet)) (Chan.bounded 1)
    [.call (.insert (.v4 1)), .call (.insert (.v4 2)), .recv, .call (.remove (.v4 1)), .recv, .recv] =
    some (c, [.add (.v4 1), .remove (.v4 1)]) ∧ c.queue = [] := ⟨_, rfl, rfl⟩

end USiem.Props
