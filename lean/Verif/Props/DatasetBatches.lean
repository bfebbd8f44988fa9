import Verif.Props.Datasets
import Verif.Props.Net
/- Properties C21 and C22, for the other datasets that are updated in batches: IP sets, text maps, rules and networks. The
theorems for IP maps are in Props/Datasets. -/
namespace USiem.Props
open Spec

/-- If a batch function may be split in two, it may be cut anywhere. -/
theorem cut_anywhere {S U : Type} (f : S → List U → Exec S)
    (hsplit : ∀ s us vs, us ≠ [] → vs ≠ [] → f s (us ++ vs) = f s us >>= fun s' => f s' vs)
    (b : List U) (bs : List (List U)) (s : S) (hb : b ≠ []) (hbs : ∀ x ∈ bs, x ≠ []) :
    f s (b :: bs).flatten = (b :: bs).foldlM f s := by
  induction bs generalizing b s with
  | nil => simp only [List.flatten_cons, List.flatten_nil, List.append_nil, List.foldlM_cons, List.foldlM_nil, bind_pure]
  | cons y t ih =>
    have hy : y ≠ [] := hbs y (by simp)
    have hne : (y :: t).flatten ≠ [] := by
      cases y with
      | nil => exact absurd rfl hy
      | cons a z => simp
    rw [List.flatten_cons, hsplit _ _ _ hb hne, List.foldlM_cons]
    congr 1; funext s'
    exact ih y s' hy (fun z hz => hbs z (List.mem_cons_of_mem _ hz))

theorem flatten_cons_ne_nil {U : Type} {b : List U} (bs : List (List U)) (hb : b ≠ []) : (b :: bs).flatten ≠ [] := by
  cases b with
  | nil => exact absurd rfl hb
  | cons a t => simp

/-! ### C21 -/

/-- Networks: a batch equals any split of it as two consecutive batches; where one panics (a prefix length that is too long),
so does the other. -/
theorem C21_networks (s : Syn (IpNet Str)) (us vs : List (IpNet.Upd Str)) (hu : us ≠ []) (hv : vs ≠ []) :
    ipNetApplyUpdates s (us ++ vs) = ipNetApplyUpdates s us >>= fun s' => ipNetApplyUpdates s' vs := by
  unfold ipNetApplyUpdates
  rw [applyBatch_append _ _ (fun d u => by cases u <;> rfl) us vs hu hv]
  simp only [bind_assoc, Exec.pure_eq, Exec.ret_bind]

/-- Any way of cutting a history in non-empty batches gives the same dataset: IP sets. -/
theorem C21_any_partition_ip_set (s : Syn IpSet) (b : List IpSet.Upd) (bs : List (List IpSet.Upd))
    (hb : b ≠ []) (hbs : ∀ x ∈ bs, x ≠ []) :
    ipSetApplyUpdates s (b :: bs).flatten = (b :: bs).foldlM ipSetApplyUpdates s :=
  cut_anywhere _ C21_ip_set b bs s hb hbs

/-- Text maps. -/
theorem C21_any_partition_text_map (s : Syn (TextMap Str)) (b : List (TextMap.Upd Str)) (bs : List (List (TextMap.Upd Str)))
    (hb : b ≠ []) (hbs : ∀ x ∈ bs, x ≠ []) :
    textMapApplyUpdates s (b :: bs).flatten = (b :: bs).foldlM textMapApplyUpdates s :=
  cut_anywhere _ C21_text_map b bs s hb hbs

/-- Rules. -/
theorem C21_any_partition_rules (s : Syn RulesDataset) (b : List RulesDataset.Upd) (bs : List (List RulesDataset.Upd))
    (hb : b ≠ []) (hbs : ∀ x ∈ bs, x ≠ []) :
    rulesApplyUpdates s (b :: bs).flatten = (b :: bs).foldlM rulesApplyUpdates s :=
  cut_anywhere _ C21_rules b bs s hb hbs

/-- Networks. -/
theorem C21_any_partition_networks (s : Syn (IpNet Str)) (b : List (IpNet.Upd Str)) (bs : List (List (IpNet.Upd Str)))
    (hb : b ≠ []) (hbs : ∀ x ∈ bs, x ≠ []) :
    ipNetApplyUpdates s (b :: bs).flatten = (b :: bs).foldlM ipNetApplyUpdates s :=
  cut_anywhere _ C21_networks b bs s hb hbs

/-- Non-vacuity: three batches of networks, and the same as one. -/
example : ∃ s', [[.add (.v4 0x0a000001, 8, chars% "ten")], [.add (.v4 0x0a010000, 16, chars% "deep"), .remove (.v4 0x0aff0000, 8)],
      [.add (.v6 1, 120, chars% "one")]].foldlM ipNetApplyUpdates ⟨IpNet.new, 0⟩ = .ret s' ∧
    s'.dataset.get (.v4 0x0a010203) = some (chars% "deep") ∧ s'.dataset.get (.v4 0x0a020203) = none ∧
    s'.dataset.get (.v6 1) = some (chars% "one") := ⟨_, rfl, by decide, by decide, by decide⟩

/-! ### C22 -/

/-- End to end for an IP set: whatever the interleaving of producers and owner, if the owner applies what it received, cut in
any non-empty batches, a reader of the new snapshot sees for every address what the last received update concerning it says. -/
theorem C22_reader_sees_received_ip_set (cap : Nat) (s : Syn IpSet) (es : List (ChanEvent (SynCall SiemIp SiemIp IpSet)))
    (c : Chan IpSet.Upd) (b : List IpSet.Upd) (bs : List (List IpSet.Upd))
    (h : runEvents SynCall.run (Chan.bounded cap) es = some (c, (b :: bs).flatten))
    (hb : b ≠ []) (hbs : ∀ x ∈ bs, x ≠ []) :
    ∃ s' accepted, (b :: bs).foldlM ipSetApplyUpdates s = .ret s' ∧
      Accepted SynCall.run SynCall.submits (Chan.bounded cap) es accepted ∧ (b :: bs).flatten <+: accepted ∧
      ∀ k, LastWins (ipSetSays · k) (b :: bs).flatten (ipSetSynContains s k) (ipSetSynContains s' k) := by
  rw [← C21_any_partition_ip_set s b bs hb hbs]
  obtain ⟨s', h1, _, h2⟩ := C20_ip_set s (b :: bs).flatten (flatten_cons_ne_nil bs hb)
  obtain ⟨acc, ha, _, hp, _⟩ := C22_fifo cap es c _ h
  exact ⟨s', acc, h1, ha, (List.prefix_append _ _).trans hp, h2⟩

/-- End to end for a text map. -/
theorem C22_reader_sees_received_text_map (cap : Nat) (s : Syn (TextMap Str))
    (es : List (ChanEvent (SynCall (Str × Str) Str (TextMap Str)))) (c : Chan (TextMap.Upd Str)) (b : List (TextMap.Upd Str))
    (bs : List (List (TextMap.Upd Str))) (h : runEvents SynCall.run (Chan.bounded cap) es = some (c, (b :: bs).flatten))
    (hb : b ≠ []) (hbs : ∀ x ∈ bs, x ≠ []) :
    ∃ s' accepted, (b :: bs).foldlM textMapApplyUpdates s = .ret s' ∧
      Accepted SynCall.run SynCall.submits (Chan.bounded cap) es accepted ∧ (b :: bs).flatten <+: accepted ∧
      ∀ k, LastWins (textMapSays · k) (b :: bs).flatten (textMapSynGet s k) (textMapSynGet s' k) := by
  rw [← C21_any_partition_text_map s b bs hb hbs]
  obtain ⟨s', h1, _, h2⟩ := C20_text_map s (b :: bs).flatten (flatten_cons_ne_nil bs hb)
  obtain ⟨acc, ha, _, hp, _⟩ := C22_fifo cap es c _ h
  exact ⟨s', acc, h1, ha, (List.prefix_append _ _).trans hp, h2⟩

/-- End to end for the rules, with their blocking `insert` and their `try_insert`. -/
theorem C22_reader_sees_received_rules (cap : Nat) (s : Syn RulesDataset) (es : List (ChanEvent RulesCall))
    (c : Chan RulesDataset.Upd) (b : List RulesDataset.Upd) (bs : List (List RulesDataset.Upd))
    (h : runEvents RulesCall.run (Chan.bounded cap) es = some (c, (b :: bs).flatten))
    (hb : b ≠ []) (hbs : ∀ x ∈ bs, x ≠ []) :
    ∃ s' accepted, (b :: bs).foldlM rulesApplyUpdates s = .ret s' ∧
      Accepted RulesCall.run RulesCall.submits (Chan.bounded cap) es accepted ∧ (b :: bs).flatten <+: accepted ∧
      ∀ k, LastWins (rulesSays · k) (b :: bs).flatten (rulesSynGet s k) (rulesSynGet s' k) := by
  rw [← C21_any_partition_rules s b bs hb hbs]
  obtain ⟨s', h1, _, h2⟩ := C20_rules s (b :: bs).flatten (flatten_cons_ne_nil bs hb)
  obtain ⟨acc, ha, _, hp, _⟩ := C22_rules_fifo cap es c _ h
  exact ⟨s', acc, h1, ha, (List.prefix_append _ _).trans hp, h2⟩

/-- End to end for networks: as long as the updates received carry existing prefix lengths. -/
theorem C22_reader_sees_received_networks (cap : Nat) (s : Syn (IpNet Str))
    (es : List (ChanEvent (SynCall (SiemIp × BitVec 8 × Str) (SiemIp × BitVec 8) (IpNet Str)))) (c : Chan (IpNet.Upd Str))
    (b : List (IpNet.Upd Str)) (bs : List (List (IpNet.Upd Str)))
    (h : runEvents SynCall.run (Chan.bounded cap) es = some (c, (b :: bs).flatten))
    (hb : b ≠ []) (hbs : ∀ x ∈ bs, x ≠ []) (hok : ∀ u ∈ (b :: bs).flatten, UpdOk u) :
    ∃ s' accepted, (b :: bs).foldlM ipNetApplyUpdates s = .ret s' ∧
      Accepted SynCall.run SynCall.submits (Chan.bounded cap) es accepted ∧ (b :: bs).flatten <+: accepted ∧
      ∀ ip len, LastWins (netSays ip len) (b :: bs).flatten (stored s.dataset ip len) (stored s'.dataset ip len) := by
  rw [← C21_any_partition_networks s b bs hb hbs]
  obtain ⟨s', h1, _, h2⟩ := C23_apply_updates s (b :: bs).flatten (flatten_cons_ne_nil bs hb) hok
  obtain ⟨acc, ha, _, hp, _⟩ := C22_fifo cap es c _ h
  exact ⟨s', acc, h1, ha, (List.prefix_append _ _).trans hp, h2⟩

/-- Non-vacuity: capacity 1, the second update is dropped; the owner applies the others as two batches. -/
example : ∃ c s', runEvents (SynCall.run (A := SiemIp) (R := SiemIp) (D := IpSet)) (Chan.bounded 1)
      [.call (.insert (.v4 1)), .call (.insert (.v4 2)), .recv, .call (.insert (.v4 3)), .recv] =
      some (c, [[Update.add (.v4 1)], [.add (.v4 3)]].flatten) ∧
    [[Update.add (.v4 1)], [.add (.v4 3)]].foldlM ipSetApplyUpdates ⟨IpSet.new, 0⟩ = .ret s' ∧
    ipSetSynContains s' (.v4 1) = true ∧ ipSetSynContains s' (.v4 2) = false ∧ ipSetSynContains s' (.v4 3) = true :=
  ⟨_, _, rfl, rfl, rfl, rfl, rfl⟩

end USiem.Props
