import Verif.Spec.Events
import Verif.Props.Log
import Verif.Props.Mac
import Verif.Props.SiemIp
/- C45, C46, C48: structured events. -/
namespace USiem
open Spec Props

/-! ### A log built by adding fields -/

/-- Adding fields one after the other. -/
def buildFrom (log : SiemLog) (fields : List (Str × SiemField)) : SiemLog := fields.foldl (fun l p => l.addField p.1 p.2) log

theorem buildFrom_append (log : SiemLog) (a b : List (Str × SiemField)) : buildFrom log (a ++ b) = buildFrom (buildFrom log a) b := by
  simp [buildFrom]

/-- The invariant of a log that only `add_field` was used on, with every name at most once. -/
structure Built (log : SiemLog) (fields : List (Str × SiemField)) : Prop where
  field : ∀ name v, log.field name = some v ↔ (name, v) ∈ fields
  nodup : (fields.map (·.1)).Nodup
  ips : ∀ name, name ∈ log.ipFields ↔ ∃ a, (name, SiemField.ip a) ∈ fields
  tags : log.tags = []

theorem built_add {log : SiemLog} {fields : List (Str × SiemField)} (h : Built log fields) (n : Str) (v : SiemField)
    (hn : n ∉ fields.map (·.1)) : Built (log.addField n v) ((n, v) :: fields) := by
  refine ⟨?_, by simpa using ⟨by simpa using hn, h.nodup⟩, ?_, by simp [SiemLog.addField, SiemLog.insert, h.tags]⟩
  · intro name w
    rw [show log.addField n v = log.insert n v from rfl, field_insert]
    by_cases he : n = name
    · subst he
      simp only [if_true, Option.some.injEq, List.mem_cons, Prod.mk.injEq, true_and]
      constructor
      · intro e; exact .inl e.symm
      · rintro (e | e)
        · exact e.symm
        · exact absurd (List.mem_map.2 ⟨_, e, rfl⟩) hn
    · rw [if_neg he, h.field]
      simp [Ne.symm he]
  · intro name
    have hnip : n ∉ log.ipFields := by
      intro hm
      obtain ⟨a, ha⟩ := (h.ips n).1 hm
      exact hn (List.mem_map.2 ⟨_, ha, rfl⟩)
    have hi := h.ips name
    cases v <;> simp only [SiemLog.addField, SiemLog.insert, List.mem_cons, Prod.mk.injEq, OSet.mem_insert, hi] <;> simp
    constructor
    · rintro (rfl | ⟨a, ha⟩)
      · exact ⟨_, .inl ⟨rfl, rfl⟩⟩
      · exact ⟨a, .inr ha⟩
    · rintro ⟨a, ⟨rfl, _⟩ | ha⟩
      · exact .inl rfl
      · exact .inr ⟨a, ha⟩

theorem built_new : Built (SiemLog.new [] 0 []) baseFields := by
  refine ⟨?_, by decide, ?_, rfl⟩
  · intro name v
    simp only [SiemLog.new, SiemLog.field, OMap.get?_insert]
    by_cases h1 : chars% "event.received" = name
    · subst h1; simp [baseFields, ofField_original]; exact eq_comm
    by_cases h2 : chars% "event.created" = name
    · subst h2; simp [baseFields, ofField_original]; exact eq_comm
    by_cases h3 : chars% "origin" = name
    · subst h3; simp [baseFields, ofField_original]; exact eq_comm
    by_cases h4 : chars% "message" = name
    · subst h4; simp [baseFields, ofField_original]; exact eq_comm
    rw [if_neg h1, if_neg h2, if_neg h3, if_neg h4]
    simp [baseFields, Ne.symm h1, Ne.symm h2, Ne.symm h3, Ne.symm h4]
  · intro name
    simp [SiemLog.new, baseFields]

theorem ipFieldsFrom_mem {fields : OMap Str InternalField} (names : List Str) (h : ∀ n ∈ names, (fields.get? n).isSome)
    (name : Str) (v : SiemField) :
    (name, v) ∈ SiemLog.ipFieldsFrom fields names ↔ name ∈ names ∧ (fields.get? name).map (·.original) = some v := by
  induction names with
  | nil => simp [SiemLog.ipFieldsFrom]
  | cons n t ih =>
    obtain ⟨f, hf⟩ := Option.isSome_iff_exists.1 (h n (by simp))
    have ih := ih (fun x hx => h x (by simp [hx]))
    simp only [SiemLog.ipFieldsFrom, hf, List.mem_cons, Prod.mk.injEq, ih]
    constructor
    · rintro (⟨rfl, rfl⟩ | ⟨h1, h2⟩)
      · exact ⟨.inl rfl, by rw [hf]; rfl⟩
      · exact ⟨.inr h1, h2⟩
    · rintro ⟨rfl | h1, h2⟩
      · rw [hf] at h2
        exact .inl ⟨rfl, (Option.some.inj h2).symm⟩
      · exact .inr ⟨h1, h2⟩

theorem built_contains {log : SiemLog} {fields : List (Str × SiemField)} (h : Built log (fields.reverse ++ baseFields)) :
    Contains log fields := by
  have hm : ∀ p, p ∈ fields.reverse ++ baseFields ↔ p ∈ fields ++ baseFields := by intro p; simp
  refine ⟨fun name v hv => (h.field name v).2 ((hm _).2 hv), fun name v hv => (hm _).1 ((h.field name v).1 hv), ?_, h.tags⟩
  intro name v
  have hsome : ∀ n ∈ log.ipFields, (log.fields.get? n).isSome := by
    intro n hn
    obtain ⟨a, ha⟩ := (h.ips n).1 hn
    have := (h.field n _).2 ha
    simp only [SiemLog.field, Option.map_eq_some_iff] at this
    obtain ⟨f, hf, _⟩ := this
    rw [hf]; rfl
  rw [SiemLog.ipFieldList, ipFieldsFrom_mem _ hsome, h.ips]
  have hb : ∀ a, (name, SiemField.ip a) ∉ baseFields := by intro a; simp [baseFields]
  constructor
  · rintro ⟨⟨a, ha⟩, hv⟩
    have hv' : log.field name = some v := hv
    have := (h.field name _).2 ha
    rw [this] at hv'
    obtain rfl := Option.some.inj hv'
    refine ⟨?_, a, rfl⟩
    simpa [hb a] using ha
  · rintro ⟨hv, a, rfl⟩
    have : (name, SiemField.ip a) ∈ fields.reverse ++ baseFields := by simp [hv]
    exact ⟨⟨a, this⟩, (h.field name _).2 this⟩

/-- Adding fields with distinct new names. -/
theorem built_from {log : SiemLog} {base : List (Str × SiemField)} : ∀ (fields : List (Str × SiemField)), Built log base →
    ((fields.reverse ++ base).map (·.1)).Nodup → Built (buildFrom log fields) (fields.reverse ++ base) := by
  intro fields
  induction fields generalizing log base with
  | nil => intro h _; exact h
  | cons p t ih =>
    intro h hn
    have hn' : ((t.reverse ++ ((p.1, p.2) :: base)).map (·.1)).Nodup := by simpa using hn
    have h1 : p.1 ∉ base.map (·.1) := by
      have h3 := (List.nodup_append.1 (by simpa using hn' : ((t.reverse.map (·.1)) ++ (p.1 :: base.map (·.1))).Nodup)).2.1
      exact (List.nodup_cons.1 h3).1
    have := ih (built_add h p.1 p.2 h1) hn'
    simpa [buildFrom] using this

/-- The shape of every conversion. -/
theorem contains_of_build (fields : List (Str × SiemField)) (hn : ((fields ++ baseFields).map (·.1)).Nodup) :
    Contains (buildFrom (SiemLog.new [] 0 []) fields) fields := by
  apply built_contains
  apply built_from fields built_new
  have hp : ((fields.reverse ++ baseFields).map (·.1)).Perm ((fields ++ baseFields).map (·.1)) :=
    (List.Perm.append_right _ (List.reverse_perm fields)).map _
  exact hp.nodup_iff.2 hn

/-! ### C48: the log of an event has its data, under the documented names, and nothing else -/

theorem setWidth_num {n : Nat} (v : BitVec n) : SiemField.u64 (v.setWidth 64) = num v := by simp [num]

theorem C48_firewall (dbg : Str → Str) (e : FirewallEvent) : Contains (e.toLog dbg) (firewallFields dbg e) := by
  have h : e.toLog dbg = buildFrom (SiemLog.new [] 0 []) (firewallFields dbg e) := by
    simp only [FirewallEvent.toLog, setWidth_num]; rfl
  rw [h]
  exact contains_of_build _ (by simp only [firewallFields, baseFields, List.map_append, List.map_cons, List.map_nil]; decide)

theorem C48_intrusion (dbg : Str → Str) (e : IntrusionEvent) : Contains (e.toLog dbg) (intrusionFields dbg e) := by
  have h : e.toLog dbg = buildFrom (SiemLog.new [] 0 []) (intrusionFields dbg e) := by
    simp only [IntrusionEvent.toLog, setWidth_num]; rfl
  rw [h]
  exact contains_of_build _ (by simp only [intrusionFields, baseFields, List.map_append, List.map_cons, List.map_nil]; decide)

theorem C48_web_proxy (dbg : Str → Str) (e : WebProxyEvent) : Contains (e.toLog dbg) (webProxyFields dbg e) := by
  have h : e.toLog dbg = buildFrom (SiemLog.new [] 0 []) (webProxyFields dbg e) := by
    simp only [WebProxyEvent.toLog, setWidth_num, webProxyFields]
    cases e.ruleCategory <;> cases e.ruleName <;> rfl
  rw [h]
  refine contains_of_build _ ?_
  cases hc : e.ruleCategory <;> cases hr : e.ruleName <;>
    simp only [webProxyFields, hc, hr, Spec.optional, baseFields, List.map_append, List.map_cons, List.map_nil] <;> decide

theorem C48_web_server (dbg : Str → Str) (e : WebServerEvent) : Contains (e.toLog dbg) (webServerFields dbg e) := by
  have h : e.toLog dbg = buildFrom (SiemLog.new [] 0 []) (webServerFields dbg e) := by
    simp only [WebServerEvent.toLog, setWidth_num, webServerFields]
    cases e.destinationIp <;> rfl
  rw [h]
  refine contains_of_build _ ?_
  cases hc : e.destinationIp <;>
    simp only [webServerFields, hc, Spec.optional, baseFields, List.map_append, List.map_cons, List.map_nil] <;> decide

theorem C48_dns (e : DnsEvent) : Contains e.toLog (dnsFields e) := by
  have hc : e.recordType.asCow = e.recordType.toStr := by cases e.recordType <;> rfl
  have h : e.toLog = buildFrom (SiemLog.new [] 0 []) (dnsFields e) := by
    simp only [DnsEvent.toLog, dnsFields, hc]
    cases e.opCode <;> cases e.data <;> rfl
  rw [h]
  refine contains_of_build _ ?_
  cases hc : e.opCode <;> cases hd : e.data <;>
    simp only [dnsFields, hc, hd, Spec.optional, baseFields, List.map_append, List.map_cons, List.map_nil] <;> decide

theorem C48_dhcp (e : DhcpEvent) : Contains e.toLog (dhcpFields e) := by
  have h : e.toLog = buildFrom (SiemLog.new [] 0 []) (dhcpFields e) := by
    simp only [DhcpEvent.toLog, dhcpFields]
    cases e.recordType <;> rfl
  rw [h]
  refine contains_of_build _ ?_
  simp only [dhcpFields]
  split <;> simp only [baseFields, List.map_append, List.map_cons, List.map_nil] <;> decide

/-- Building the log of an authentication event never panics, whatever its texts are. -/
theorem C48_auth (e : AuthEvent) : ∃ log, e.toLog = .ret log ∧ Contains log (authFields e) := by
  have hnd : (((authFields e) ++ baseFields).map (·.1)).Nodup := by
    cases hl : e.loginType with
    | «local» | upgrade | delegation =>
      simp only [authFields, hl, baseFields, List.map_append, List.map_cons, List.map_nil]; decide
    | remote u d a =>
      have : (addressField a).map (·.1) = [] ∨ (addressField a).map (·.1) = [chars% "source.ip"] := by
        unfold addressField; split <;> simp
      simp only [authFields, hl, baseFields, List.map_append, List.map_cons, List.map_nil]
      rcases this with h | h <;> rw [h] <;> decide
    | validation u a =>
      have : (addressField a).map (·.1) = [] ∨ (addressField a).map (·.1) = [chars% "source.ip"] := by
        unfold addressField; split <;> simp
      simp only [authFields, hl, baseFields, List.map_append, List.map_cons, List.map_nil]
      rcases this with h | h <;> rw [h] <;> decide
  refine ⟨buildFrom (SiemLog.new [] 0 []) (authFields e), ?_, contains_of_build _ hnd⟩
  simp only [AuthEvent.toLog, authFields]
  cases e.loginType with
  | «local» | upgrade | delegation => rfl
  | remote u d a =>
    obtain ⟨r, hr⟩ := C43_from_str_total a
    simp only [addressField, hr]
    cases r <;> rfl
  | validation u a =>
    obtain ⟨r, hr⟩ := C43_from_str_total a
    simp only [addressField, hr]
    cases r <;> rfl

/-- The conversion of the enumeration is the one of the event it carries; the kinds without data, and `Json`, give an empty log. -/
theorem C48_event (dbg : Str → Str) (e : SiemEvent) : ∃ log, e.toLog dbg = .ret log ∧
    Contains log (match e with
      | .firewall v => firewallFields dbg v
      | .intrusion v => intrusionFields dbg v
      | .webProxy v => webProxyFields dbg v
      | .webServer v => webServerFields dbg v
      | .dns v => dnsFields v
      | .dhcp v => dhcpFields v
      | .auth v => authFields v
      | _ => []) := by
  cases e with
  | firewall v => exact ⟨_, rfl, C48_firewall dbg v⟩
  | intrusion v => exact ⟨_, rfl, C48_intrusion dbg v⟩
  | webProxy v => exact ⟨_, rfl, C48_web_proxy dbg v⟩
  | webServer v => exact ⟨_, rfl, C48_web_server dbg v⟩
  | dns v => exact ⟨_, rfl, C48_dns v⟩
  | dhcp v => exact ⟨_, rfl, C48_dhcp v⟩
  | auth v => exact C48_auth v
  | _ => exact ⟨_, rfl, contains_of_build [] (by decide)⟩

/-! ### The printed names of an enumeration are different -/

theorem inj_of_nodup {α : Type} {f : α → Str} : ∀ {l : List α}, (l.map f).Nodup → ∀ {a b : α}, a ∈ l → b ∈ l → f a = f b → a = b
  | [], _, a, b, ha, _, _ => by cases ha
  | c :: t, h, a, b, ha, hb, e => by
    simp only [List.map_cons, List.nodup_cons] at h
    rcases List.mem_cons.1 ha with ea | ta <;> rcases List.mem_cons.1 hb with eb | tb
    · rw [ea, eb]
    · subst ea; exact absurd (List.mem_map.2 ⟨b, tb, e.symm⟩) h.1
    · subst eb; exact absurd (List.mem_map.2 ⟨a, ta, e⟩) h.1
    · exact inj_of_nodup h.2 ta tb e

theorem payload_ne {p d x : Str} (hx : '(' ∉ x) (hp : '(' ∈ p) : x ≠ p ++ d ++ [')'] := by
  rintro rfl
  simp [hp] at hx

theorem payload_inj {p : Str} {dbg : Str → Str} (hd : ∀ a b, dbg a = dbg b → a = b) {a b : Str}
    (h : p ++ dbg a ++ [')'] = p ++ dbg b ++ [')']) : a = b :=
  hd a b (List.append_cancel_left (List.append_cancel_right h))

theorem IntrusionCategory.toStr_inj {a b : IntrusionCategory} (h : a.toStr = b.toStr) : a = b := by
  have hm : ∀ a : IntrusionCategory, a ∈ IntrusionCategory.all := by intro a; cases a <;> decide
  exact inj_of_nodup (by decide +kernel) (hm a) (hm b) h

theorem IntrusionOutcome.toStr_inj {a b : IntrusionOutcome} (h : a.toStr = b.toStr) : a = b := by
  have hm : ∀ a : IntrusionOutcome, a ∈ IntrusionOutcome.all := by intro a; cases a <;> decide
  exact inj_of_nodup (by decide +kernel) (hm a) (hm b) h

theorem FirewallOutcome.toStr_inj {a b : FirewallOutcome} (h : a.toStr = b.toStr) : a = b := by
  have hm : ∀ a : FirewallOutcome, a ∈ FirewallOutcome.all := by intro a; cases a <;> decide
  exact inj_of_nodup (by decide +kernel) (hm a) (hm b) h

theorem WebProxyOutcome.toStr_inj {a b : WebProxyOutcome} (h : a.toStr = b.toStr) : a = b := by
  have hm : ∀ a : WebProxyOutcome, a ∈ WebProxyOutcome.all := by intro a; cases a <;> decide
  exact inj_of_nodup (by decide +kernel) (hm a) (hm b) h

theorem WebServerOutcome.toStr_inj {a b : WebServerOutcome} (h : a.toStr = b.toStr) : a = b := by
  have hm : ∀ a : WebServerOutcome, a ∈ WebServerOutcome.all := by intro a; cases a <;> decide
  exact inj_of_nodup (by decide +kernel) (hm a) (hm b) h

theorem LoginOutcome.toStr_inj {a b : LoginOutcome} (h : a.toStr = b.toStr) : a = b := by
  have hm : ∀ a : LoginOutcome, a ∈ LoginOutcome.all := by intro a; cases a <;> decide
  exact inj_of_nodup (by decide +kernel) (hm a) (hm b) h

theorem DnsEventType.toStr_inj {a b : DnsEventType} (h : a.toStr = b.toStr) : a = b := by
  have hm : ∀ a : DnsEventType, a ∈ DnsEventType.all := by intro a; cases a <;> decide
  exact inj_of_nodup (by decide +kernel) (hm a) (hm b) h

theorem DnsRecordType.toStr_inj {a b : DnsRecordType} (h : a.toStr = b.toStr) : a = b := by
  have hm : ∀ a : DnsRecordType, a ∈ DnsRecordType.all := by intro a; cases a <;> decide
  exact inj_of_nodup (by decide +kernel) (hm a) (hm b) h

theorem DhcpRecordType.toStr_inj {a b : DhcpRecordType} (h : a.toStr = b.toStr) : a = b := by
  have hm : ∀ a : DhcpRecordType, a ∈ DhcpRecordType.all := by intro a; cases a <;> decide
  exact inj_of_nodup (by decide +kernel) (hm a) (hm b) h

theorem NetworkProtocol.toStr_inj {dbg : Str → Str} (hd : ∀ a b, dbg a = dbg b → a = b) {a b : NetworkProtocol}
    (h : a.toStr dbg = b.toStr dbg) : a = b := by
  have hm : ∀ a : NetworkProtocol, (a ∈ NetworkProtocol.all ∧ a.toStr dbg = a.toStr id ∧ '(' ∉ a.toStr id) ∨ ∃ v, a = .OTHER v := by
    intro a
    cases a with
    | OTHER v => exact .inr ⟨v, rfl⟩
    | _ => exact .inl ⟨by decide, rfl, by decide⟩
  rcases hm a with ⟨ha, ea, pa⟩ | ⟨v, rfl⟩ <;> rcases hm b with ⟨hb, eb, pb⟩ | ⟨w, rfl⟩
  · rw [ea, eb] at h
    exact inj_of_nodup (by decide +kernel) ha hb h
  · rw [ea] at h
    exact absurd h (payload_ne pa (by decide))
  · rw [eb] at h
    exact absurd h.symm (payload_ne pb (by decide))
  · rw [payload_inj hd h]

theorem WebProxyRuleCategory.toStr_inj {dbg : Str → Str} (hd : ∀ a b, dbg a = dbg b → a = b) {a b : WebProxyRuleCategory}
    (h : a.toStr dbg = b.toStr dbg) : a = b := by
  have hm : ∀ a : WebProxyRuleCategory, (a ∈ WebProxyRuleCategory.all ∧ a.toStr dbg = a.toStr id ∧ '(' ∉ a.toStr id) ∨ ∃ v, a = .Others v := by
    intro a
    cases a with
    | Others v => exact .inr ⟨v, rfl⟩
    | _ => exact .inl ⟨by decide, rfl, by decide⟩
  rcases hm a with ⟨ha, ea, pa⟩ | ⟨v, rfl⟩ <;> rcases hm b with ⟨hb, eb, pb⟩ | ⟨w, rfl⟩
  · rw [ea, eb] at h
    exact inj_of_nodup (by decide +kernel) ha hb h
  · rw [ea] at h
    exact absurd h (payload_ne pa (by decide))
  · rw [eb] at h
    exact absurd h.symm (payload_ne pb (by decide))
  · rw [payload_inj hd h]

theorem HttpMethod.toStr_inj {dbg : Str → Str} (hd : ∀ a b, dbg a = dbg b → a = b) {a b : HttpMethod}
    (h : a.toStr dbg = b.toStr dbg) : a = b := by
  have hm : ∀ a : HttpMethod, (a ∈ HttpMethod.all ∧ a.toStr dbg = a.toStr id ∧ '(' ∉ a.toStr id) ∨ ∃ v, a = .UNKNOWN v := by
    intro a
    cases a with
    | UNKNOWN v => exact .inr ⟨v, rfl⟩
    | _ => exact .inl ⟨by decide, rfl, by decide⟩
  rcases hm a with ⟨ha, ea, pa⟩ | ⟨v, rfl⟩ <;> rcases hm b with ⟨hb, eb, pb⟩ | ⟨w, rfl⟩
  · rw [ea, eb] at h
    exact inj_of_nodup (by decide +kernel) ha hb h
  · rw [ea] at h
    exact absurd h (payload_ne pa (by decide))
  · rw [eb] at h
    exact absurd h.symm (payload_ne pb (by decide))
  · rw [payload_inj hd h]

theorem WebProtocol.toStr_inj {dbg : Str → Str} (hd : ∀ a b, dbg a = dbg b → a = b) {a b : WebProtocol}
    (h : a.toStr dbg = b.toStr dbg) : a = b := by
  have hm : ∀ a : WebProtocol, (a ∈ WebProtocol.all ∧ a.toStr dbg = a.toStr id ∧ '(' ∉ a.toStr id) ∨ ∃ v, a = .UNKNOWN v := by
    intro a
    cases a with
    | UNKNOWN v => exact .inr ⟨v, rfl⟩
    | _ => exact .inl ⟨by decide, rfl, by decide⟩
  rcases hm a with ⟨ha, ea, pa⟩ | ⟨v, rfl⟩ <;> rcases hm b with ⟨hb, eb, pb⟩ | ⟨w, rfl⟩
  · rw [ea, eb] at h
    exact inj_of_nodup (by decide +kernel) ha hb h
  · rw [ea] at h
    exact absurd h (payload_ne pa (by decide))
  · rw [eb] at h
    exact absurd h.symm (payload_ne pb (by decide))
  · rw [payload_inj hd h]

/-! ### No two events give the same log -/

theorem same_value {log : SiemLog} {f g : List (Str × SiemField)} (hf : Contains log f) (hg : Contains log g) {name : Str}
    {v w : SiemField} (hv : (name, v) ∈ f) (hw : (name, w) ∈ g) : v = w := by
  have h1 := hf.stored name v (by simp [hv])
  have h2 := hg.stored name w (by simp [hw])
  rw [h1] at h2
  exact Option.some.inj h2

theorem num_inj {n : Nat} (hn : n ≤ 64) {v w : BitVec n} (h : num v = num w) : v = w := by
  simp only [num, SiemField.u64.injEq] at h
  have := congrArg BitVec.toNat h
  simp only [BitVec.toNat_ofNat] at this
  have hv : v.toNat < 2 ^ 64 := Nat.lt_of_lt_of_le v.isLt (Nat.pow_le_pow_right (by omega) hn)
  have hw : w.toNat < 2 ^ 64 := Nat.lt_of_lt_of_le w.isLt (Nat.pow_le_pow_right (by omega) hn)
  rw [Nat.mod_eq_of_lt hv, Nat.mod_eq_of_lt hw] at this
  exact BitVec.eq_of_toNat_eq this

/-- Every firewall event can be read back from its log. `hd`: the Debug text of a string determines it. -/
theorem C48_firewall_keeps {dbg : Str → Str} (hd : ∀ a b, dbg a = dbg b → a = b) (e f : FirewallEvent)
    (h : e.toLog dbg = f.toLog dbg) : e = f := by
  have he := C48_firewall dbg e
  have hf := C48_firewall dbg f
  rw [← h] at hf
  have get : ∀ {name v w}, (name, v) ∈ firewallFields dbg e → (name, w) ∈ firewallFields dbg f → v = w :=
    fun hv hw => same_value he hf hv hw
  have h1 := get (name := chars% "source.ip") (by simp [firewallFields]; rfl) (by simp [firewallFields]; rfl)
  have h2 := get (name := chars% "destination.ip") (by simp [firewallFields]; rfl) (by simp [firewallFields]; rfl)
  have h3 := get (name := chars% "source.port") (by simp [firewallFields]; rfl) (by simp [firewallFields]; rfl)
  have h4 := get (name := chars% "destination.port") (by simp [firewallFields]; rfl) (by simp [firewallFields]; rfl)
  have h5 := get (name := chars% "event.outcome") (by simp [firewallFields]; rfl) (by simp [firewallFields]; rfl)
  have h6 := get (name := chars% "observer.ingress.interface") (by simp [firewallFields]; rfl) (by simp [firewallFields]; rfl)
  have h7 := get (name := chars% "observer.egress.interface") (by simp [firewallFields]; rfl) (by simp [firewallFields]; rfl)
  have h8 := get (name := chars% "source.bytes") (by simp [firewallFields]; rfl) (by simp [firewallFields]; rfl)
  have h9 := get (name := chars% "destination.bytes") (by simp [firewallFields]; rfl) (by simp [firewallFields]; rfl)
  have h10 := get (name := chars% "network.transport") (by simp [firewallFields]; rfl) (by simp [firewallFields]; rfl)
  obtain ⟨a1, a2, a3, a4, a5, a6, a7, a8, a9, a10⟩ := e
  obtain ⟨b1, b2, b3, b4, b5, b6, b7, b8, b9, b10⟩ := f
  simp only [SiemField.ip.injEq, SiemField.text.injEq] at h1 h2 h5 h6 h7 h10
  obtain rfl := h1
  obtain rfl := h2
  obtain rfl := num_inj (by omega) h3
  obtain rfl := num_inj (by omega) h4
  obtain rfl := FirewallOutcome.toStr_inj h5
  obtain rfl := h6
  obtain rfl := h7
  obtain rfl := num_inj (by omega) h8
  obtain rfl := num_inj (by omega) h9
  obtain rfl := NetworkProtocol.toStr_inj hd h10
  rfl

theorem same_fields {log : SiemLog} {f g : List (Str × SiemField)} (hf : Contains log f) (hg : Contains log g) (p : Str × SiemField) :
    p ∈ f ++ baseFields ↔ p ∈ g ++ baseFields :=
  ⟨fun h => hg.nothingElse _ _ (hf.stored _ _ h), fun h => hf.nothingElse _ _ (hg.stored _ _ h)⟩

theorem optional_mem {α : Type} {name n : Str} {v : Option α} {f : α → SiemField} {w : SiemField} :
    (n, w) ∈ Spec.optional name v f ↔ n = name ∧ v.map f = some w := by
  cases v <;> simp [Spec.optional, eq_comm]

theorem optional_eq {α : Type} {v w : Option α} {f : α → SiemField} (hf : ∀ a b, f a = f b → a = b)
    (h : ∀ x, v.map f = some x ↔ w.map f = some x) : v = w := by
  cases v with
  | none =>
    cases w with
    | none => rfl
    | some b => have := (h (f b)).2 rfl; cases this
  | some a =>
    have := (h (f a)).1 rfl
    cases w with
    | none => cases this
    | some b => rw [hf b a (Option.some.inj this)]

/-- Every intrusion event can be read back from its log. -/
theorem C48_intrusion_keeps {dbg : Str → Str} (hd : ∀ a b, dbg a = dbg b → a = b) (e f : IntrusionEvent)
    (h : e.toLog dbg = f.toLog dbg) : e = f := by
  have he := C48_intrusion dbg e
  have hf := C48_intrusion dbg f
  rw [← h] at hf
  have get : ∀ {name v w}, (name, v) ∈ intrusionFields dbg e → (name, w) ∈ intrusionFields dbg f → v = w :=
    fun hv hw => same_value he hf hv hw
  have h1 := get (name := chars% "source.ip") (by simp [intrusionFields]; rfl) (by simp [intrusionFields]; rfl)
  have h2 := get (name := chars% "source.port") (by simp [intrusionFields]; rfl) (by simp [intrusionFields]; rfl)
  have h3 := get (name := chars% "destination.ip") (by simp [intrusionFields]; rfl) (by simp [intrusionFields]; rfl)
  have h4 := get (name := chars% "destination.port") (by simp [intrusionFields]; rfl) (by simp [intrusionFields]; rfl)
  have h5 := get (name := chars% "event.outcome") (by simp [intrusionFields]; rfl) (by simp [intrusionFields]; rfl)
  have h6 := get (name := chars% "network.protocol") (by simp [intrusionFields]; rfl) (by simp [intrusionFields]; rfl)
  have h7 := get (name := chars% "rule.category") (by simp [intrusionFields]; rfl) (by simp [intrusionFields]; rfl)
  have h8 := get (name := chars% "rule.name") (by simp [intrusionFields]; rfl) (by simp [intrusionFields]; rfl)
  have h9 := get (name := chars% "rule.id") (by simp [intrusionFields]; rfl) (by simp [intrusionFields]; rfl)
  obtain ⟨a0, a1, a2, a3, a4, a5, a6, a7, a8⟩ := e
  obtain ⟨b0, b1, b2, b3, b4, b5, b6, b7, b8⟩ := f
  obtain rfl := SiemField.ip.inj h1
  obtain rfl := num_inj (by omega) h2
  obtain rfl := SiemField.ip.inj h3
  obtain rfl := num_inj (by omega) h4
  obtain rfl := IntrusionOutcome.toStr_inj (SiemField.text.inj h5)
  obtain rfl := NetworkProtocol.toStr_inj hd (SiemField.text.inj h6)
  obtain rfl := IntrusionCategory.toStr_inj (SiemField.text.inj h7)
  obtain rfl := SiemField.text.inj h8
  obtain rfl := num_inj (by omega) h9
  rfl

/-- Every web proxy event can be read back from its log. -/
theorem C48_web_proxy_keeps {dbg : Str → Str} (hd : ∀ a b, dbg a = dbg b → a = b) (e f : WebProxyEvent)
    (h : e.toLog dbg = f.toLog dbg) : e = f := by
  have he := C48_web_proxy dbg e
  have hf := C48_web_proxy dbg f
  rw [← h] at hf
  have get : ∀ {name v w}, (name, v) ∈ webProxyFields dbg e → (name, w) ∈ webProxyFields dbg f → v = w :=
    fun hv hw => same_value he hf hv hw
  have h1 := get (name := chars% "source.ip") (by simp [webProxyFields, optional_mem]; rfl) (by simp [webProxyFields, optional_mem]; rfl)
  have h2 := get (name := chars% "destination.ip") (by simp [webProxyFields, optional_mem]; rfl) (by simp [webProxyFields, optional_mem]; rfl)
  have h3 := get (name := chars% "destination.port") (by simp [webProxyFields, optional_mem]; rfl) (by simp [webProxyFields, optional_mem]; rfl)
  have h4 := get (name := chars% "event.outcome") (by simp [webProxyFields, optional_mem]; rfl) (by simp [webProxyFields, optional_mem]; rfl)
  have h5 := get (name := chars% "source.bytes") (by simp [webProxyFields, optional_mem]; rfl) (by simp [webProxyFields, optional_mem]; rfl)
  have h6 := get (name := chars% "destination.bytes") (by simp [webProxyFields, optional_mem]; rfl) (by simp [webProxyFields, optional_mem]; rfl)
  have h7 := get (name := chars% "network.protocol") (by simp [webProxyFields, optional_mem]; rfl) (by simp [webProxyFields, optional_mem]; rfl)
  have h8 := get (name := chars% "http.response.status_code") (by simp [webProxyFields, optional_mem]; rfl) (by simp [webProxyFields, optional_mem]; rfl)
  have h9 := get (name := chars% "http.request.method") (by simp [webProxyFields, optional_mem]; rfl) (by simp [webProxyFields, optional_mem]; rfl)
  have h10 := get (name := chars% "url.full") (by simp [webProxyFields, optional_mem]; rfl) (by simp [webProxyFields, optional_mem]; rfl)
  have h11 := get (name := chars% "url.domain") (by simp [webProxyFields, optional_mem]; rfl) (by simp [webProxyFields, optional_mem]; rfl)
  have h12 := get (name := chars% "user.name") (by simp [webProxyFields, optional_mem]; rfl) (by simp [webProxyFields, optional_mem]; rfl)
  have h13 := get (name := chars% "http.response.mime_type") (by simp [webProxyFields, optional_mem]; rfl) (by simp [webProxyFields, optional_mem]; rfl)
  have o1 : e.ruleName = f.ruleName := by
    refine optional_eq (f := SiemField.text) (fun a b h => SiemField.text.inj h) (fun x => ?_)
    have := same_fields he hf (chars% "rule.name", x)
    simpa [webProxyFields, optional_mem, baseFields] using this
  have o2 : e.ruleCategory = f.ruleCategory := by
    refine optional_eq (f := fun c => SiemField.text (c.toStr dbg))
      (fun a b h => WebProxyRuleCategory.toStr_inj hd (SiemField.text.inj h)) (fun x => ?_)
    have := same_fields he hf (chars% "rule.category", x)
    simpa [webProxyFields, optional_mem, baseFields] using this
  obtain ⟨a0, a1, a2, a3, a4, a5, a6, a7, a8, a9, a10, a11, a12, a13, a14⟩ := e
  obtain ⟨b0, b1, b2, b3, b4, b5, b6, b7, b8, b9, b10, b11, b12, b13, b14⟩ := f
  obtain rfl := SiemField.ip.inj h1
  obtain rfl := SiemField.ip.inj h2
  obtain rfl := num_inj (by omega) h3
  obtain rfl := WebProxyOutcome.toStr_inj (SiemField.text.inj h4)
  obtain rfl := num_inj (by omega) h5
  obtain rfl := num_inj (by omega) h6
  obtain rfl := WebProtocol.toStr_inj hd (SiemField.text.inj h7)
  obtain rfl := num_inj (by omega) h8
  obtain rfl := HttpMethod.toStr_inj hd (SiemField.text.inj h9)
  obtain rfl := SiemField.text.inj h10
  obtain rfl := SiemField.text.inj h11
  obtain rfl := SiemField.user.inj h12
  obtain rfl := SiemField.text.inj h13
  obtain rfl := o1
  obtain rfl := o2
  rfl

/-- Every web server event can be read back from its log. -/
theorem C48_web_server_keeps {dbg : Str → Str} (hd : ∀ a b, dbg a = dbg b → a = b) (e f : WebServerEvent)
    (h : e.toLog dbg = f.toLog dbg) : e = f := by
  have he := C48_web_server dbg e
  have hf := C48_web_server dbg f
  rw [← h] at hf
  have get : ∀ {name v w}, (name, v) ∈ webServerFields dbg e → (name, w) ∈ webServerFields dbg f → v = w :=
    fun hv hw => same_value he hf hv hw
  have h1 := get (name := chars% "source.ip") (by simp [webServerFields, optional_mem]; rfl) (by simp [webServerFields, optional_mem]; rfl)
  have h2 := get (name := chars% "destination.port") (by simp [webServerFields, optional_mem]; rfl) (by simp [webServerFields, optional_mem]; rfl)
  have h3 := get (name := chars% "event.outcome") (by simp [webServerFields, optional_mem]; rfl) (by simp [webServerFields, optional_mem]; rfl)
  have h4 := get (name := chars% "source.bytes") (by simp [webServerFields, optional_mem]; rfl) (by simp [webServerFields, optional_mem]; rfl)
  have h5 := get (name := chars% "destination.bytes") (by simp [webServerFields, optional_mem]; rfl) (by simp [webServerFields, optional_mem]; rfl)
  have h6 := get (name := chars% "network.protocol") (by simp [webServerFields, optional_mem]; rfl) (by simp [webServerFields, optional_mem]; rfl)
  have h7 := get (name := chars% "http.response.status_code") (by simp [webServerFields, optional_mem]; rfl) (by simp [webServerFields, optional_mem]; rfl)
  have h8 := get (name := chars% "http.request.method") (by simp [webServerFields, optional_mem]; rfl) (by simp [webServerFields, optional_mem]; rfl)
  have h9 := get (name := chars% "url.full") (by simp [webServerFields, optional_mem]; rfl) (by simp [webServerFields, optional_mem]; rfl)
  have h10 := get (name := chars% "url.domain") (by simp [webServerFields, optional_mem]; rfl) (by simp [webServerFields, optional_mem]; rfl)
  have h11 := get (name := chars% "url.path") (by simp [webServerFields, optional_mem]; rfl) (by simp [webServerFields, optional_mem]; rfl)
  have h12 := get (name := chars% "url.query") (by simp [webServerFields, optional_mem]; rfl) (by simp [webServerFields, optional_mem]; rfl)
  have h13 := get (name := chars% "url.extension") (by simp [webServerFields, optional_mem]; rfl) (by simp [webServerFields, optional_mem]; rfl)
  have h14 := get (name := chars% "user.name") (by simp [webServerFields, optional_mem]; rfl) (by simp [webServerFields, optional_mem]; rfl)
  have h15 := get (name := chars% "http.response.mime_type") (by simp [webServerFields, optional_mem]; rfl) (by simp [webServerFields, optional_mem]; rfl)
  have h16 := get (name := chars% "network.duration") (by simp [webServerFields, optional_mem]; rfl) (by simp [webServerFields, optional_mem]; rfl)
  have h17 := get (name := chars% "user_agent.original") (by simp [webServerFields, optional_mem]; rfl) (by simp [webServerFields, optional_mem]; rfl)
  have o1 : e.destinationIp = f.destinationIp := by
    refine optional_eq (f := SiemField.ip) (fun a b h => SiemField.ip.inj h) (fun x => ?_)
    have := same_fields he hf (chars% "destination.ip", x)
    simpa [webServerFields, optional_mem, baseFields] using this
  obtain ⟨a0, a1, a2, a3, a4, a5, a6, a7, a8, a9, a10, a11, a12, a13, a14, a15, a16, a17⟩ := e
  obtain ⟨b0, b1, b2, b3, b4, b5, b6, b7, b8, b9, b10, b11, b12, b13, b14, b15, b16, b17⟩ := f
  obtain rfl := SiemField.ip.inj h1
  obtain rfl := num_inj (by omega) h2
  obtain rfl := WebServerOutcome.toStr_inj (SiemField.text.inj h3)
  obtain rfl := num_inj (by omega) h4
  obtain rfl := num_inj (by omega) h5
  obtain rfl := WebProtocol.toStr_inj hd (SiemField.text.inj h6)
  obtain rfl := num_inj (by omega) h7
  obtain rfl := HttpMethod.toStr_inj hd (SiemField.text.inj h8)
  obtain rfl := SiemField.text.inj h9
  obtain rfl := SiemField.text.inj h10
  obtain rfl := SiemField.text.inj h11
  obtain rfl := SiemField.text.inj h12
  obtain rfl := SiemField.text.inj h13
  obtain rfl := SiemField.user.inj h14
  obtain rfl := SiemField.text.inj h15
  obtain rfl := SiemField.f64.inj h16
  obtain rfl := SiemField.text.inj h17
  obtain rfl := o1
  rfl

/-- C48. `as_cow` of the record types of DNS and DHCP is their printed name. -/
theorem C48_as_cow (d : DnsRecordType) (h : DhcpRecordType) : d.asCow = d.toStr ∧ h.asCow = h.toStr := by
  constructor
  · cases d <;> rfl
  · cases h <;> rfl

/-- DNS answers can be read back; of a query everything but `data`, which the log does not have: see `C48_dns_query_data`. -/
theorem C48_dns_keeps (e f : DnsEvent) (h : e.toLog = f.toLog) :
    e.sourceIp = f.sourceIp ∧ e.destinationIp = f.destinationIp ∧ e.opCode = f.opCode ∧ e.recordType = f.recordType ∧
    e.recordName = f.recordName ∧ (e.opCode = .ANSWER → e.data = f.data) := by
  have he := C48_dns e
  have hf := C48_dns f
  rw [← h] at hf
  have hs := same_fields he hf
  obtain ⟨a1, a2, a3, a4, a5, a6⟩ := e
  obtain ⟨b1, b2, b3, b4, b5, b6⟩ := f
  have h1 := SiemField.ip.inj (same_value he hf (name := chars% "source.ip")
    (List.mem_append_left _ List.mem_cons_self) (List.mem_append_left _ List.mem_cons_self))
  have h2 := SiemField.ip.inj (same_value he hf (name := chars% "destination.ip")
    (List.mem_append_left _ (List.mem_cons_of_mem _ List.mem_cons_self)) (List.mem_append_left _ (List.mem_cons_of_mem _ List.mem_cons_self)))
  simp only at h1 h2
  cases a3 <;> cases b3
  · have h3 := SiemField.text.inj (same_value he hf (name := chars% "dns.answer.name") (by simp [dnsFields, optional_mem]; rfl) (by simp [dnsFields, optional_mem]; rfl))
    have h4 := SiemField.text.inj (same_value he hf (name := chars% "dns.answer.type") (by simp [dnsFields, optional_mem]; rfl)
      (by simp [dnsFields, optional_mem]; rfl))
    refine ⟨h1, h2, rfl, DnsRecordType.toStr_inj h4, h3, fun _ => ?_⟩
    refine optional_eq (f := SiemField.text) (fun a b h => SiemField.text.inj h) (fun x => ?_)
    have := hs (chars% "dns.answer.data", x)
    simpa [dnsFields, optional_mem, baseFields] using this
  · have h3 := SiemField.text.inj (same_value he hf (name := chars% "dns.op_code") (by simp [dnsFields, optional_mem]; rfl) (by simp [dnsFields, optional_mem]; rfl))
    exact absurd h3 (by decide)
  · have h3 := SiemField.text.inj (same_value he hf (name := chars% "dns.op_code") (by simp [dnsFields, optional_mem]; rfl) (by simp [dnsFields, optional_mem]; rfl))
    exact absurd h3 (by decide)
  · have h3 := SiemField.text.inj (same_value he hf (name := chars% "dns.question.name") (by simp [dnsFields, optional_mem]; rfl) (by simp [dnsFields, optional_mem]; rfl))
    have h4 := SiemField.text.inj (same_value he hf (name := chars% "dns.question.type") (by simp [dnsFields, optional_mem]; rfl) (by simp [dnsFields, optional_mem]; rfl))
    exact ⟨h1, h2, rfl, DnsRecordType.toStr_inj h4, h3, fun h => by cases h⟩

/-- The `data` of a query is lost: queries that differ only in it have the same log. -/
theorem C48_dns_query_data (e : DnsEvent) (h : e.opCode = .QUERY) (d : Option Str) : { e with data := d }.toLog = e.toLog := by
  simp only [DnsEvent.toLog, h]

/-- DHCP events can be read back when the address has at most 8 bytes or more than 12 (the printed MAC of the others is cut). -/
theorem C48_dhcp_keeps (e f : DhcpEvent) (h : e.toLog = f.toLog)
    (me : e.sourceMac.toNat < 2 ^ 64 ∨ 2 ^ 96 ≤ e.sourceMac.toNat) (mf : f.sourceMac.toNat < 2 ^ 64 ∨ 2 ^ 96 ≤ f.sourceMac.toNat) :
    e = f := by
  have he := C48_dhcp e
  have hf := C48_dhcp f
  rw [← h] at hf
  have h1 := SiemField.ip.inj (same_value he hf (name := chars% "client.ip") (by simp [dhcpFields]; rfl) (by simp [dhcpFields]; rfl))
  have h2 := SiemField.text.inj (same_value he hf (name := chars% "client.mac") (by simp [dhcpFields]; rfl) (by simp [dhcpFields]; rfl))
  have h3 := SiemField.text.inj (same_value he hf (name := chars% "dhcp.type") (by simp [dhcpFields]; rfl) (by simp [dhcpFields]; rfl))
  have h4 := SiemField.text.inj (same_value he hf (name := chars% "client.hostname") (by simp [dhcpFields]; rfl) (by simp [dhcpFields]; rfl))
  have h5 := SiemField.text.inj (same_value he hf (name := chars% "host.hostname") (by simp [dhcpFields]; rfl) (by simp [dhcpFields]; rfl))
  have p1 := (C11_mac128_round_trip_any_iff _ e.sourceMac.isLt).2 me
  have p2 := (C11_mac128_round_trip_any_iff _ f.sourceMac.isLt).2 mf
  rw [h2, p2] at p1
  have hm : f.sourceMac = e.sourceMac := BitVec.eq_of_toNat_eq (Option.some.inj (Exec.ret.inj p1))
  obtain ⟨a1, a2, a3, a4, a5⟩ := e
  obtain ⟨b1, b2, b3, b4, b5⟩ := f
  simp only at h1 hm h4 h5
  obtain rfl := DhcpRecordType.toStr_inj h3
  rw [h1, hm, h4, h5]

/-- The others are not told apart from a shorter address. -/
theorem C48_dhcp_mac_cut (e : DhcpEvent) :
    { e with sourceMac := 2 ^ 64 + 2 ^ 48 }.toLog = { e with sourceMac := 2 ^ 65 + 2 ^ 48 }.toLog := by
  have : macU128ToStr (2 ^ 64 + 2 ^ 48 : BitVec 128).toNat = macU128ToStr (2 ^ 65 + 2 ^ 48 : BitVec 128).toNat := by decide +kernel
  simp only [DhcpEvent.toLog, this]

theorem all_iff_eq {a b : SiemField} : (∀ x, x = a ↔ x = b) ↔ a = b :=
  ⟨fun h => (h a).1 rfl, fun h x => by rw [h]⟩

/-- Every authentication event can be read back from its log: the kind of login, its names and its addresses. -/
theorem C48_auth_keeps (e f : AuthEvent) (h : e.toLog = f.toLog) : e = f := by
  obtain ⟨log, l1, he⟩ := C48_auth e
  obtain ⟨log', l2, hf⟩ := C48_auth f
  rw [l1, l2] at h
  obtain rfl := Exec.ret.inj h
  have hs := same_fields he hf
  have hadr : ∀ a n v, n ≠ chars% "source.ip" → (n, v) ∉ addressField a := by
    intro a n v hn hm
    unfold addressField at hm
    split at hm
    · simp at hm; exact hn hm.1
    · cases hm
  have h1 := SiemField.text.inj (same_value he hf (name := chars% "host.hostname")
    (List.mem_append_left _ List.mem_cons_self) (List.mem_append_left _ List.mem_cons_self))
  have h2 := SiemField.text.inj (same_value he hf (name := chars% "event.outcome")
    (List.mem_append_left _ (List.mem_cons_of_mem _ List.mem_cons_self)) (List.mem_append_left _ (List.mem_cons_of_mem _ List.mem_cons_self)))
  have g1 := fun x => hs (chars% "user.name", x)
  have g2 := fun x => hs (chars% "user.domain", x)
  have g3 := fun x => hs (chars% "source.user.name", x)
  have g4 := fun x => hs (chars% "source.user.domain", x)
  have g5 := fun x => hs (chars% "source.address", x)
  obtain ⟨a1, a2, a3⟩ := e
  obtain ⟨b1, b2, b3⟩ := f
  simp only at h1
  obtain rfl := h1
  obtain rfl := LoginOutcome.toStr_inj h2
  have : a1 = b1 := by
    cases a1 <;> cases b1 <;> simp [authFields, baseFields, hadr, all_iff_eq] at g1 g2 g3 g4 g5 <;> simp_all
  rw [this]

end USiem
