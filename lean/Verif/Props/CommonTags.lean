import Verif.Model.CommonTags
import Verif.Props.Log
/- C39: the common tags of events/tags.rs. -/
namespace USiem.Props
open Spec

/-- C39 (common tags): the common tags are pairwise different. -/
theorem C39_common_tags_distinct : CommonTag.all.Nodup := by decide +kernel

/-- The letters of a common tag are a to z and `_`. -/
theorem common_tags_ascii : ∀ t ∈ CommonTag.all, (∀ c ∈ t, c.toNat < 128) ∧ t.map Char.toLower = t := by decide +kernel

/-- C39 (common tags): each common tag is found as it was added (unlike tags with capitals), also if it was added with capitals, and only if it was added.
`lower` is only known on ASCII texts here. -/
theorem C39_common_tags (u : Ambient) (hl : ∀ s : Str, (∀ c ∈ s, c.toNat < 128) → u.lower s = s.map Char.toLower)
    (m : Str) (r : BitVec 64) (o : Str) (calls : List LogCall) (log : SiemLog) (hrun : runCalls u (.new m r o) calls = .ret log)
    {t : Str} (ht : t ∈ CommonTag.all) :
    (log.hasTag t = true ↔ ∃ x, .addTag x ∈ calls ∧ u.lower x = t) ∧ (.addTag t ∈ calls → log.hasTag t = true) ∧
    ∀ x : Str, (∀ c ∈ x, c.toNat < 128) → x.map Char.toLower = t → .addTag x ∈ calls → log.hasTag t = true := by
  have h := C39_has_tag u m r o calls log hrun t
  obtain ⟨h1, h2⟩ := common_tags_ascii t ht
  refine ⟨?_, ?_, ?_⟩
  · rw [h]
    exact ⟨fun ⟨x, a, b⟩ => ⟨x, a, b.symm⟩, fun ⟨x, a, b⟩ => ⟨x, a, b.symm⟩⟩
  · intro hx
    exact h.2 ⟨t, hx, by rw [hl t h1, h2]⟩
  · intro x hx hm hc
    exact h.2 ⟨x, hc, by rw [hl x hx, hm]⟩

/-- C39 (common tags): adding one common tag adds that one and no other. -/
theorem C39_common_tags_separate (u : Ambient) (hl : ∀ s : Str, (∀ c ∈ s, c.toNat < 128) → u.lower s = s.map Char.toLower) (log : SiemLog)
    {t t' : Str} (ht : t ∈ CommonTag.all) : (log.addTag u t).hasTag t' = true ↔ t' = t ∨ log.hasTag t' = true := by
  obtain ⟨h1, h2⟩ := common_tags_ascii t ht
  have e : u.lower t = t := by rw [hl t h1, h2]
  simp only [SiemLog.hasTag, SiemLog.addTag, e]
  simp [OSet.mem_insert]

/-- Met: a tag added with capitals. -/
example : chars% "vip_user" ∈ CommonTag.all ∧ (chars% "VIP_User").map Char.toLower = chars% "vip_user" := by decide +kernel

/-- Met: lower case as a reading of ASCII, and a history that adds three tags, two of them common ones. -/
def asciiLowering : Ambient := ⟨fun _ => [], fun _ => [], F64.fin, fun s => s.map Char.toLower⟩

example : (∀ s : Str, (∀ c ∈ s, c.toNat < 128) → asciiLowering.lower s = s.map Char.toLower) ∧
    ∃ log, runCalls asciiLowering (.new (chars% "m") 0 (chars% "o"))
      [.addTag (chars% "VIP_User"), .addTag (chars% "mine"), .addTag (chars% "web_server")] = .ret log ∧
      CommonTag.all.filter log.hasTag = [CommonTag.vipUser, CommonTag.webServer] :=
  ⟨fun _ _ => rfl, _, rfl, by decide +kernel⟩

end USiem.Props
