import Verif.Spec.GeoDisk
import Verif.Props.Net
/- C80: the dataset on disk, with failing reads and writes and with crashes. -/
namespace USiem.Props
open Spec
variable {V : Type}

/-- The record that an insertion writes. -/
def keyed (x : SiemIp × BitVec 8 × V) : List (BitVec 8) × V :=
  match slowGetKey x.1 x.2.1 with
  | .ret k => (k, x.2.2)
  | .panic => ([], x.2.2)

theorem keyed_eq {ip : SiemIp} {net : BitVec 8} {v : V} {k : List (BitVec 8)} (h : slowGetKey ip net = .ret k) : keyed (ip, net, v) = (k, v) := by
  simp only [keyed, h]

def insertKeyed (t : OMap (List (BitVec 8)) V) (p : List (BitVec 8) × V) : OMap (List (BitVec 8)) V := t.insert p.1 p.2

theorem foldlM_keyed : ∀ (ins : List (SiemIp × BitVec 8 × V)) (t : OMap (List (BitVec 8)) V), (∀ i ∈ ins, ValidLen i.1 i.2.1.toNat) →
    ins.foldlM (fun t i => slowInsert t i.1 i.2.1 i.2.2) t = .ret ((ins.map keyed).foldl insertKeyed t)
  | [], t, _ => rfl
  | (ip, net, v) :: r, t, h => by
    obtain ⟨k, hk, _⟩ := (C24_slow_key_shape ip net).1 (h _ List.mem_cons_self)
    have h1 : slowInsert t ip net v = .ret (t.insert k v) := by simp [slowInsert, hk]
    rw [List.foldlM_cons]
    simp only [h1, Exec.ret_bind, List.map_cons, keyed_eq hk, List.foldl_cons]
    exact foldlM_keyed r _ fun i hi => h i (List.mem_cons_of_mem _ hi)

/-- The database holds the log. -/
structure DiskInv (d : SledDb V) (l : DiskLog V) : Prop where
  le : l.safe ≤ l.there.length
  valid : ∀ i ∈ l.there, ValidLen i.1 i.2.1.toNat
  safe : d.safe = ((l.there.take l.safe).map keyed).foldl insertKeyed []
  pending : d.pending = (l.there.drop l.safe).map keyed

theorem DiskInv.tree {d : SledDb V} {l : DiskLog V} (h : DiskInv d l) : d.tree = (l.there.map keyed).foldl insertKeyed [] := by
  have : l.there.map keyed = (l.there.take l.safe).map keyed ++ (l.there.drop l.safe).map keyed := by
    rw [← List.map_append, List.take_append_drop]
  rw [this, List.foldl_append, ← h.safe, ← h.pending]
  rfl

theorem take_then (l : List α) (a n : Nat) : l.take (a + n) = l.take a ++ (l.drop a).take n := by
  rw [List.take_add]

theorem diskInv_step {d : SledDb V} {l : DiskLog V} (h : DiskInv d l) (op : DiskOp V) (hv : DiskOpValid op) :
    ∃ d', op.run d = .ret d' ∧ DiskInv d' (l.step op) := by
  cases op with
  | insert ip net data done =>
    obtain ⟨k, hk, _⟩ := (C24_slow_key_shape ip net).1 hv
    refine ⟨if done then d.write k data else d, by simp [DiskOp.run, slowInsertDisk, hk], ?_⟩
    cases done with
    | false => exact h
    | true =>
      simp only [if_true, DiskLog.step, SledDb.write]
      refine ⟨by have := h.le; simp; omega, ?_, ?_, ?_⟩
      · intro i hi
        rcases List.mem_append.1 hi with hi | hi
        · exact h.valid i hi
        · cases List.mem_singleton.1 hi; exact hv
      · rw [List.take_append_of_le_length h.le]; exact h.safe
      · rw [List.drop_append_of_le_length h.le, List.map_append, ← h.pending, List.map_singleton, keyed_eq hk]
  | flush n =>
    refine ⟨_, rfl, ?_⟩
    have ht : l.there.take (min (l.safe + n) l.there.length) = l.there.take l.safe ++ (l.there.drop l.safe).take n := by
      rw [← take_then, ← List.take_eq_take_min]
    have hd : l.there.drop (min (l.safe + n) l.there.length) = (l.there.drop l.safe).drop n := by
      rw [List.drop_drop]
      by_cases hc : l.safe + n ≤ l.there.length
      · rw [Nat.min_eq_left hc]
      · rw [Nat.min_eq_right (by omega), List.drop_length, List.drop_eq_nil_of_le (by omega)]
    refine ⟨Nat.min_le_right _ _, h.valid, ?_, ?_⟩
    · simp only [DiskLog.step, SledDb.flush]
      rw [ht, List.map_append, List.foldl_append, ← h.safe, List.map_take, ← h.pending]
      rfl
    · simp only [DiskLog.step, SledDb.flush]
      rw [hd, List.map_drop, ← h.pending]
  | crash n =>
    refine ⟨_, rfl, ?_⟩
    simp only [DiskLog.step, SledDb.crash]
    refine ⟨Nat.le_refl _, fun i hi => h.valid i (List.mem_of_mem_take hi), ?_, ?_⟩
    · rw [List.take_length, take_then, List.map_append, List.foldl_append, ← h.safe, List.map_take, ← h.pending]
      rfl
    · simp

theorem diskInv_run : ∀ (ops : List (DiskOp V)) (d : SledDb V) (l : DiskLog V), DiskInv d l → (∀ op ∈ ops, DiskOpValid op) →
    ∃ d', ops.foldlM DiskOp.run d = .ret d' ∧ DiskInv d' (ops.foldl DiskLog.step l)
  | [], d, l, h, _ => ⟨d, rfl, h⟩
  | op :: ops, d, l, h, hv => by
    obtain ⟨d1, h1, h2⟩ := diskInv_step h op (hv _ List.mem_cons_self)
    obtain ⟨d', h3, h4⟩ := diskInv_run ops d1 _ h2 fun o ho => hv o (List.mem_cons_of_mem _ ho)
    exact ⟨d', by rw [List.foldlM_cons]; simp only [h1, Exec.ret_bind]; exact h3, h4⟩

theorem diskInv_empty : DiskInv (V := V) .empty { there := [], safe := 0 } :=
  ⟨Nat.le_refl _, by simp, rfl, rfl⟩

/-- C80. After any history of insertions, failed writes, flushes and crashes the dataset is there, and its records are those of the
insertions that a user expects. -/
theorem C80_records (ops : List (DiskOp V)) (hv : ∀ op ∈ ops, DiskOpValid op) :
    ∃ d, ops.foldlM DiskOp.run SledDb.empty = .ret d ∧
      (diskLog ops).there.foldlM (fun t i => slowInsert t i.1 i.2.1 i.2.2) [] = .ret d.tree := by
  obtain ⟨d, h1, h2⟩ := diskInv_run ops _ _ diskInv_empty hv
  have h2 : DiskInv d (diskLog ops) := h2
  exact ⟨d, h1, by rw [foldlM_keyed _ _ h2.valid, h2.tree]⟩

/-- C80. A lookup after such a history, with whatever reads failing, exactly: it never panics and returns the value of the last insertion that
is there under the name of `ip/len`, for the shortest tried length `len` whose read works and for which there is one. -/
theorem C80_lookup (ops : List (DiskOp V)) (hv : ∀ op ∈ ops, DiskOpValid op) (d : SledDb V)
    (hd : ops.foldlM DiskOp.run SledDb.empty = .ret d) (fails : Nat → Bool) (ip : SiemIp) :
    ∃ r, slowGetDisk fails d ip = .ret r ∧
      ∀ v, r = some v ↔ ∃ len, Tried ip len ∧ fails len = false ∧ OnDisk (diskLog ops).there (diskName ip len) v ∧
        ∀ l, Tried ip l → l < len → fails l = false → ∀ v', ¬ OnDisk (diskLog ops).there (diskName ip l) v' := by
  obtain ⟨d1, h1, h2⟩ := diskInv_run ops _ _ diskInv_empty hv
  rw [hd] at h1
  cases h1
  have h2 : DiskInv d (diskLog ops) := h2
  obtain ⟨t, ht, hs⟩ := slow_history (diskLog ops).there h2.valid []
  rw [foldlM_keyed _ _ h2.valid, ← h2.tree] at ht
  cases ht
  have hs' : ∀ i, i < addrBits ip → ∃ k, slowGetKey ip (BitVec.ofNat 8 i) = .ret k ∧
      ∀ v, d.tree.get? k = some v ↔ OnDisk (diskLog ops).there (diskName ip i) v := by
    intro i hi
    have hmod : (BitVec.ofNat 8 i).toNat = i := by
      have : addrBits ip ≤ 128 := by cases ip <;> simp [addrBits]
      simp only [BitVec.toNat_ofNat]; omega
    have hvl : ValidLen ip (BitVec.ofNat 8 i).toNat := by rw [hmod]; exact Nat.le_of_lt hi
    obtain ⟨k, hk, _⟩ := (C24_slow_key_shape ip (BitVec.ofNat 8 i)).1 hvl
    refine ⟨k, hk, fun v => ?_⟩
    rw [hs ip _ k hvl hk v, hmod]
    constructor
    · rintro (h | ⟨_, h⟩)
      · exact h
      · simp [OMap.get?] at h
    · exact Or.inl
  let f : Nat → Option V := fun i => if fails i then none else match slowGetKey ip (BitVec.ofNat 8 i) with
    | .ret k => d.tree.get? k
    | .panic => none
  have hf : ∀ i, i < addrBits ip → ∀ v, f i = some v ↔ fails i = false ∧ OnDisk (diskLog ops).there (diskName ip i) v := by
    intro i hi v
    obtain ⟨k, hk, hv⟩ := hs' i hi
    simp only [f, hk]
    cases fails i with
    | true => simp
    | false => simp [hv v]
  have loop : ∀ is : List Nat, (∀ i ∈ is, i < addrBits ip) → slowGetDiskLoop fails d ip is = .ret (is.findSome? f) := by
    intro is
    induction is with
    | nil => intro _; rfl
    | cons i is ih =>
      intro hi
      obtain ⟨k, hk, _⟩ := hs' i (hi i List.mem_cons_self)
      have hr := ih fun j hj => hi j (List.mem_cons_of_mem _ hj)
      cases hfi : fails i with
      | true =>
        have : f i = none := by simp only [f, hfi, if_true]
        simp only [slowGetDiskLoop, hk, Exec.ret_bind, List.findSome?_cons, this, hfi, if_true, hr]
      | false =>
        have : f i = d.tree.get? k := by simp only [f, hfi, hk]; rfl
        simp only [slowGetDiskLoop, hk, Exec.ret_bind, List.findSome?_cons, this, hfi, Bool.false_eq_true, if_false]
        cases d.tree.get? k with
        | some v => rfl
        | none => exact hr
  obtain ⟨z, hz, hget⟩ : ∃ z, (∀ l, l < addrBits ip → (z ≤ l ↔ addrNat ip % 2 ^ (l + 1) ≠ 0)) ∧
      slowGetDisk fails d ip = slowGetDiskLoop fails d ip (List.range' z (addrBits ip - z)) := by
    cases ip with
    | v4 a => exact ⟨trailingZeros a, fun l hl => trailingZeros_le_iff a l hl, rfl⟩
    | v6 a => exact ⟨trailingZeros a, fun l hl => trailingZeros_le_iff a l hl, rfl⟩
  refine ⟨_, (by rw [hget]; exact loop _ (by intro i hi; simp [List.mem_range'_1] at hi; omega)), fun v => ?_⟩
  rw [findSome_range']
  constructor
  · rintro ⟨i, h1, h2, h3, h4⟩
    have hi : i < addrBits ip := by omega
    obtain ⟨g1, g2⟩ := (hf i hi v).1 h3
    refine ⟨i, ⟨hi, (hz i hi).1 h1⟩, g1, g2, ?_⟩
    rintro l ⟨hl1, hl2⟩ hl3 hlf v' ho
    have := h4 l ((hz l hl1).2 hl2) hl3
    rw [(hf l hl1 v').2 ⟨hlf, ho⟩] at this; cases this
  · rintro ⟨i, ⟨h1, h2⟩, h3, h4, h5⟩
    refine ⟨i, (hz i h1).2 h2, by have := (hz i h1).2 h2; omega, (hf i h1 v).2 ⟨h3, h4⟩, ?_⟩
    intro j hj1 hj2
    cases hfj : f j with
    | none => rfl
    | some v' =>
      obtain ⟨g1, g2⟩ := (hf j (by omega) v').1 hfj
      exact absurd g2 (h5 j ⟨by omega, (hz j (by omega)).1 hj1⟩ hj2 g1 v')

/-! ### What is there -/

theorem inserted_append (a b : List (DiskOp V)) : inserted (a ++ b) = inserted a ++ inserted b := by
  induction a with
  | nil => rfl
  | cons op a ih =>
    cases op with
    | insert ip net data done => cases done <;> simp [inserted, ih]
    | flush n => simp [inserted, ih]
    | crash n => simp [inserted, ih]

theorem diskLog_snoc (ops : List (DiskOp V)) (op : DiskOp V) : diskLog (ops ++ [op]) = (diskLog ops).step op := by
  simp [diskLog]

theorem diskLog_append (a b : List (DiskOp V)) : diskLog (a ++ b) = b.foldl DiskLog.step (diskLog a) := by
  simp [diskLog]

theorem mem_inserted (ops : List (DiskOp V)) (x : SiemIp × BitVec 8 × V) : x ∈ inserted ops ↔ .insert x.1 x.2.1 x.2.2 true ∈ ops := by
  induction ops with
  | nil => simp [inserted]
  | cons op ops ih =>
    cases op with
    | insert ip net data done =>
      cases done with
      | true =>
        simp only [inserted, List.mem_cons, ih, DiskOp.insert.injEq, and_true]
        constructor
        · rintro (rfl | h)
          · exact .inl ⟨rfl, rfl, rfl⟩
          · exact .inr h
        · rintro (⟨h1, h2, h3⟩ | h)
          · exact .inl (Prod.ext h1 (Prod.ext h2 h3))
          · exact .inr h
      | false => simp [inserted, ih]
    | flush n => simp [inserted, ih]
    | crash n => simp [inserted, ih]

theorem diskLog_le (ops : List (DiskOp V)) (l : DiskLog V) (h : l.safe ≤ l.there.length) :
    (ops.foldl DiskLog.step l).safe ≤ (ops.foldl DiskLog.step l).there.length := by
  induction ops generalizing l with
  | nil => exact h
  | cons op ops ih =>
    refine ih _ ?_
    cases op with
    | insert ip net data done => cases done <;> simp [DiskLog.step] <;> omega
    | flush n => exact Nat.min_le_right _ _
    | crash n => exact Nat.le_refl _

/-- C80. What is there was inserted, in that order; and without crashes nothing whose write took place is missing. -/
theorem C80_there_was_inserted (ops : List (DiskOp V)) :
    (diskLog ops).there.Sublist (inserted ops) ∧ ((∀ op ∈ ops, isCrash op = false) → (diskLog ops).there = inserted ops) := by
  have gen : ∀ (ops : List (DiskOp V)) (l : DiskLog V) (ins : List (SiemIp × BitVec 8 × V)), l.there.Sublist ins →
      (ops.foldl DiskLog.step l).there.Sublist (ins ++ inserted ops) ∧
      ((∀ op ∈ ops, isCrash op = false) → l.there = ins → (ops.foldl DiskLog.step l).there = ins ++ inserted ops) := by
    intro ops
    induction ops with
    | nil => intro l ins h; simpa [inserted] using h
    | cons op ops ih =>
      intro l ins h
      rw [List.foldl_cons]
      cases op with
      | insert ip net data done =>
        cases done with
        | true =>
          have := ih (l.step (.insert ip net data true)) (ins ++ [(ip, net, data)]) (by simpa [DiskLog.step] using h)
          refine ⟨by simpa [inserted] using this.1, fun hc he => ?_⟩
          have := this.2 (fun o ho => hc o (List.mem_cons_of_mem _ ho)) (by simp [DiskLog.step, he])
          simpa [inserted] using this
        | false =>
          have := ih (l.step (.insert ip net data false)) ins (by simpa [DiskLog.step] using h)
          exact ⟨by simpa [inserted] using this.1, fun hc he =>
            this.2 (fun o ho => hc o (List.mem_cons_of_mem _ ho)) (by simpa [DiskLog.step] using he)⟩
      | flush n =>
        have := ih (l.step (.flush n)) ins h
        exact ⟨this.1, fun hc he => this.2 (fun o ho => hc o (List.mem_cons_of_mem _ ho)) he⟩
      | crash n =>
        have := ih (l.step (.crash n)) ins ((List.take_sublist _ _).trans h)
        refine ⟨this.1, fun hc _ => ?_⟩
        have := hc _ List.mem_cons_self
        simp [isCrash] at this
  have := gen ops { there := [], safe := 0 } [] (List.Sublist.refl _)
  exact ⟨by simpa [diskLog] using this.1, fun hc => by simpa [diskLog] using this.2 hc rfl⟩

theorem safe_prefix (ops : List (DiskOp V)) : ∀ (l : DiskLog V) (p : List (SiemIp × BitVec 8 × V)), p <+: l.there → p.length ≤ l.safe →
    p <+: (ops.foldl DiskLog.step l).there := by
  induction ops with
  | nil => intro l p h _; exact h
  | cons op ops ih =>
    intro l p h hl
    refine ih _ p ?_ ?_
    · cases op with
      | insert ip net data done =>
        cases done with
        | true => exact h.trans (List.prefix_append _ _)
        | false => exact h
      | flush n => exact h
      | crash n => exact List.prefix_take_iff.2 ⟨h, by omega⟩
    · cases op with
      | insert ip net data done => exact hl
      | flush n =>
        have := h.length_le
        simp only [DiskLog.step]; omega
      | crash n =>
        have := h.length_le
        simp only [DiskLog.step, List.length_take]; omega

/-- C80. What was flushed to the disk stays there, in the same order and before everything else, whatever happens afterwards: a history
`before`, a flush of all that was pending, and any `after` with any crashes. -/
theorem C80_flushed_survives (before after : List (DiskOp V)) (n : Nat) (hn : (diskLog before).there.length ≤ n) :
    (diskLog before).there <+: (diskLog (before ++ .flush n :: after)).there := by
  rw [diskLog_append, List.foldl_cons]
  refine safe_prefix after _ _ (List.prefix_refl _) ?_
  simp only [DiskLog.step]; omega

/-- C80. A crash loses only the latest insertions: what is there after it is a first part of what was there before. After it,
everything that is left is safe. -/
theorem C80_crash_loses_the_end (ops after : List (DiskOp V)) (n : Nat) :
    (diskLog (ops ++ [.crash n])).there <+: (diskLog ops).there ∧
    (diskLog (ops ++ [.crash n])).there <+: (diskLog (ops ++ .crash n :: after)).there := by
  have h1 : (diskLog (ops ++ [.crash n])) = (diskLog ops).step (.crash n) := diskLog_snoc _ _
  refine ⟨by rw [h1]; exact List.take_prefix _ _, ?_⟩
  rw [h1, diskLog_append, List.foldl_cons]
  exact safe_prefix after _ _ (List.prefix_refl _) (Nat.le_refl _)

/-- C80. Nothing is invented: what a lookup returns was given to an insertion of the history whose write took place, under a network with the
name of a tried network of the address. -/
theorem C80_nothing_invented (ops : List (DiskOp V)) (hv : ∀ op ∈ ops, DiskOpValid op) (d : SledDb V)
    (hd : ops.foldlM DiskOp.run SledDb.empty = .ret d) (fails : Nat → Bool) (ip : SiemIp) (v : V)
    (h : slowGetDisk fails d ip = .ret (some v)) :
    ∃ a net len, .insert a net v true ∈ ops ∧ Tried ip len ∧ fails len = false ∧ diskName a net.toNat = diskName ip len := by
  obtain ⟨r, h1, h2⟩ := C80_lookup ops hv d hd fails ip
  rw [h] at h1
  cases h1
  obtain ⟨len, g1, g2, ⟨pre, a, net, post, e, hn, _⟩, _⟩ := (h2 v).1 rfl
  refine ⟨a, net, len, ?_, g1, g2, hn⟩
  have : (a, net, v) ∈ (diskLog ops).there := by rw [e]; simp
  exact (mem_inserted ops (a, net, v)).1 ((C80_there_was_inserted ops).1.subset this)

/-- C80. With IPv4 networks only, the answer for an address is always data of a network that contains it, whatever fails. -/
theorem C80_v4_contains (ops : List (DiskOp V)) (hv : ∀ op ∈ ops, DiskOpValid op)
    (h4 : ∀ a net v done, .insert a net v done ∈ ops → ∃ w, a = .v4 w) (d : SledDb V)
    (hd : ops.foldlM DiskOp.run SledDb.empty = .ret d) (fails : Nat → Bool) (w : BitVec 32) (v : V)
    (h : slowGetDisk fails d (.v4 w) = .ret (some v)) :
    ∃ a net, .insert a net v true ∈ ops ∧ SameNet a (.v4 w) net.toNat := by
  obtain ⟨a, net, len, h1, h2, _, h3⟩ := C80_nothing_invented ops hv d hd fails _ v h
  obtain ⟨b, rfl⟩ := h4 _ _ _ _ h1
  refine ⟨_, net, h1, rfl, ?_⟩
  simp only [diskName, Prod.mk.injEq] at h3
  obtain ⟨e1, rfl⟩ := h3
  have e2 : baseNat (.v4 b) net.toNat = baseNat (.v4 w) net.toNat := Nat.eq_of_mul_eq_mul_right (by decide) e1
  simp only [baseNat, addrNat, addrBits] at e2 ⊢
  exact Nat.eq_of_mul_eq_mul_right (Nat.two_pow_pos _) e2

/-- C80. An insertion panics exactly for a prefix length that does not exist, and then before anything is written. -/
theorem C80_bad_length_panics (d : SledDb V) (op : DiskOp V) : op.run d = .panic ↔ ¬ DiskOpValid op := by
  cases op with
  | insert ip net data done =>
    constructor
    · intro h hv
      obtain ⟨k, hk, _⟩ := (C24_slow_key_shape ip net).1 hv
      simp [DiskOp.run, slowInsertDisk, hk] at h
    · intro hv
      simp [DiskOp.run, slowInsertDisk, (C24_slow_key_shape ip net).2 hv]
  | flush n => exact ⟨fun h => (by cases h), fun h => absurd trivial h⟩
  | crash n => exact ⟨fun h => (by cases h), fun h => absurd trivial h⟩

/-- C80. With a disk that does not fail a lookup is that of C24, and a database that cannot be opened is a panic. -/
theorem C80_reliable (d : SledDb V) (ip : SiemIp) :
    slowGetDisk (fun _ => false) d ip = slowGet d.tree ip ∧
    (∀ (E : Type) (e : E), slowOpen (V := V) (.error e) = .panic) ∧ ∀ E : Type, slowOpen (E := E) (.ok d) = .ret d := by
  have loop : ∀ is : List Nat, slowGetDiskLoop (fun _ => false) d ip is = slowGetLoop d.tree ip is := by
    intro is
    induction is with
    | nil => rfl
    | cons i is ih =>
      simp only [slowGetDiskLoop, slowGetLoop, Bool.false_eq_true, if_false, ih]
      congr 1
      funext key
      cases d.tree.get? key <;> rfl
  refine ⟨?_, fun _ _ => rfl, fun _ => rfl⟩
  cases ip <;> exact loop _

/-- Disagreement: a read that fails is not reported. With 10.0.0.0/8 and 10.1.0.0/16 on the disk, the answer for 10.1.0.1 is the first, the
second or none, depending on which reads fail. -/
theorem C80_read_errors_hidden : ∃ d : SledDb Str,
    [DiskOp.insert (.v4 0x0a000000) 8 (chars% "wide") true, .insert (.v4 0x0a010000) 16 (chars% "narrow") true].foldlM DiskOp.run .empty = .ret d ∧
    slowGetDisk (fun _ => false) d (.v4 0x0a010001) = .ret (some (chars% "wide")) ∧
    slowGetDisk (fun i => i == 8) d (.v4 0x0a010001) = .ret (some (chars% "narrow")) ∧
    slowGetDisk (fun _ => true) d (.v4 0x0a010001) = .ret none := by
  refine ⟨_, rfl, ?_, ?_, ?_⟩ <;> decide +kernel

/-- Disagreement: a write that fails is not reported either: the dataset is as if the insertion had not been asked for. -/
theorem C80_write_errors_hidden (d : SledDb V) (ip : SiemIp) (net : BitVec 8) (v : V) (h : ValidLen ip net.toNat) :
    (DiskOp.insert ip net v false).run d = .ret d := by
  obtain ⟨k, hk, _⟩ := (C24_slow_key_shape ip net).1 h
  simp [DiskOp.run, slowInsertDisk, hk]

example : ∃ ops : List (DiskOp Str), (∀ op ∈ ops, DiskOpValid op) ∧ (diskLog ops).there.map (·.2.2) = [chars% "a", chars% "b"] ∧
    (inserted ops).map (·.2.2) = [chars% "a", chars% "b", chars% "c"] ∧ ops.any isCrash = true :=
  ⟨[.insert (.v4 0x0a000000) 8 (chars% "a") true, .flush 1, .insert (.v4 0x0b000000) 8 (chars% "b") true,
    .insert (.v4 0x0c000000) 8 (chars% "x") false, .insert (.v4 0x0c000000) 8 (chars% "c") true, .crash 1],
    by simp [DiskOpValid, ValidLen, addrBits], by decide, by decide, by decide⟩

end USiem.Props
