import Verif.Model.Log
/- Model of /repo/src/events/tags.rs: the common tags. -/
namespace USiem.CommonTag

/-- `VIP_USER`, src/events/tags.rs line 4. -/
def vipUser : Str := chars% "vip_user"

/-- `ADMIN_USER`, src/events/tags.rs line 7. -/
def adminUser : Str := chars% "admin_user"

/-- `FAKE_ACCOUNT`, src/events/tags.rs line 10. -/
def fakeAccount : Str := chars% "fake_account"

/-- `HONEYPOT`, src/events/tags.rs line 13. -/
def honeypot : Str := chars% "honeypot"

/-- `CRITICAL_ASSET`, src/events/tags.rs line 16. -/
def criticalAsset : Str := chars% "critical_asset"

/-- `NETWORK_ASSET`, src/events/tags.rs line 19. -/
def networkAsset : Str := chars% "network_asset"

/-- `SECURITY_ASSET`, src/events/tags.rs line 22. -/
def securityAsset : Str := chars% "security_asset"

/-- `WEB_SERVER`, src/events/tags.rs line 25. -/
def webServer : Str := chars% "web_server"

/-- `DNS_SERVER`, src/events/tags.rs line 29. -/
def dnsServer : Str := chars% "dns_server"

/-- `BASTION_HOST`, src/events/tags.rs line 34. -/
def bastionHost : Str := chars% "bastion_host"

/-- `JUMP_HOST`, src/events/tags.rs line 39. -/
def jumpHost : Str := chars% "jump_host"

/-- `MAINTENANCE_PERIOD`, src/events/tags.rs line 42. -/
def maintenancePeriod : Str := chars% "maintenance_period"

/-- `IOC_MISP`, src/events/tags.rs line 45. -/
def iocMisp : Str := chars% "ioc_misp"

/-- `NEVER_SEEN_IP`, src/events/tags.rs line 48. -/
def neverSeenIp : Str := chars% "never_seen_ip"

/-- `BLOCKED_IP`, src/events/tags.rs line 51. -/
def blockedIp : Str := chars% "in_block_list"

/-- All of them, src/events/tags.rs lines 4-51. -/
def all : List Str :=
  [vipUser, adminUser, fakeAccount, honeypot, criticalAsset, networkAsset, securityAsset, webServer, dnsServer, bastionHost, jumpHost, maintenancePeriod, iocMisp, neverSeenIp, blockedIp]

end USiem.CommonTag
