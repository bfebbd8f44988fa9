import Verif.Rust.Prim
/- Model of the enumerations of /repo/src/events that print as their Debug name. Written by tools/gen_events.py.
A variant keeps its Rust name. `dbg` is the Debug text of a string (quoted and escaped); which characters it escapes is left open. -/
namespace USiem

/-- `NetworkProtocol`, protocol.rs lines 7-152. -/
inductive NetworkProtocol where
  | HOPOPT
  | ICMP
  | IGMP
  | GGP
  | IPV4
  | ST
  | TCP
  | CBT
  | EGP
  | IGP
  | BBN_RCC_MON
  | NVP_II
  | PUP
  | ARGUS
  | EMCON
  | XNET
  | CHAOS
  | UDP
  | MUX
  | DCN_MEAS
  | HMP
  | PRM
  | XNS_IDP
  | TRUNK_1
  | TRUNK_2
  | LEAF_1
  | LEAF_2
  | RDP
  | IRTP
  | ISO_TP4
  | NETBLT
  | MFE_NSP
  | MERIT_INP
  | DCCP
  | ThirdPC
  | IDPR
  | XTP
  | DDP
  | IDPR_CMTP
  | TPpp
  | IL
  | IPV6
  | SDRP
  | IPV6_ROUTE
  | IPV6_FRAG
  | IDRP
  | RSVP
  | GRE
  | DSR
  | BNA
  | ESP
  | AH
  | I_NLSP
  | SWIPE
  | NARP
  | MOBILE
  | TLSP
  | SKIP
  | IPV6_ICMP
  | IPV6_NONXT
  | IPV6_OPTS
  | CFTP
  | SAT_EXPAK
  | KRYPTOLAN
  | RVD
  | IPPC
  | SAT_MON
  | VISA
  | IPCV
  | CPNX
  | CPHB
  | WSN
  | PVP
  | BR_SAT_MON
  | SUN_ND
  | WB_MON
  | WB_EXPAK
  | ISO_IP
  | VMTP
  | SECURE_VMTP
  | VINES
  | TTP
  | IPTM
  | NSFNET_IGP
  | DGP
  | TCF
  | EIGRP
  | OSPFIGP
  | SPRITE_RPC
  | LARP
  | MTP
  | AX_25
  | IPIP
  | MICP
  | SCC_SP
  | ETHERIP
  | ENCAP
  | GMTP
  | IFMP
  | PNNI
  | PIM
  | ARIS
  | SCPS
  | QNX
  | A_N
  | IPCOMP
  | SNP
  | COMPAQ_PEER
  | IPX_IN_IP
  | VRRP
  | PGM
  | L2TP
  | DDX
  | IATP
  | STP
  | SRP
  | UTI
  | SMP
  | SM
  | PTP
  | ISIS
  | FIRE
  | CRTP
  | CRUDP
  | SSCOPMCE
  | IPLT
  | SPS
  | PIPE
  | SCTP
  | FC
  | RSVP_E2E_IGNORE
  | MOBILITY
  | UDPLITE
  | MPLS_IN_IP
  | MANET
  | HIP
  | SHIM6
  | WESP
  | ROHC
  | ETHERNET
  | USE
  | RESERVED
  | OTHER (v : Str)
  | UNKNOWN
  deriving DecidableEq

/-- `Display` of `NetworkProtocol`, protocol.rs lines 153-159: the derived Debug text. -/
def NetworkProtocol.toStr (dbg : Str → Str) : NetworkProtocol → Str
  | .HOPOPT => chars% "HOPOPT"
  | .ICMP => chars% "ICMP"
  | .IGMP => chars% "IGMP"
  | .GGP => chars% "GGP"
  | .IPV4 => chars% "IPV4"
  | .ST => chars% "ST"
  | .TCP => chars% "TCP"
  | .CBT => chars% "CBT"
  | .EGP => chars% "EGP"
  | .IGP => chars% "IGP"
  | .BBN_RCC_MON => chars% "BBN_RCC_MON"
  | .NVP_II => chars% "NVP_II"
  | .PUP => chars% "PUP"
  | .ARGUS => chars% "ARGUS"
  | .EMCON => chars% "EMCON"
  | .XNET => chars% "XNET"
  | .CHAOS => chars% "CHAOS"
  | .UDP => chars% "UDP"
  | .MUX => chars% "MUX"
  | .DCN_MEAS => chars% "DCN_MEAS"
  | .HMP => chars% "HMP"
  | .PRM => chars% "PRM"
  | .XNS_IDP => chars% "XNS_IDP"
  | .TRUNK_1 => chars% "TRUNK_1"
  | .TRUNK_2 => chars% "TRUNK_2"
  | .LEAF_1 => chars% "LEAF_1"
  | .LEAF_2 => chars% "LEAF_2"
  | .RDP => chars% "RDP"
  | .IRTP => chars% "IRTP"
  | .ISO_TP4 => chars% "ISO_TP4"
  | .NETBLT => chars% "NETBLT"
  | .MFE_NSP => chars% "MFE_NSP"
  | .MERIT_INP => chars% "MERIT_INP"
  | .DCCP => chars% "DCCP"
  | .ThirdPC => chars% "ThirdPC"
  | .IDPR => chars% "IDPR"
  | .XTP => chars% "XTP"
  | .DDP => chars% "DDP"
  | .IDPR_CMTP => chars% "IDPR_CMTP"
  | .TPpp => chars% "TPpp"
  | .IL => chars% "IL"
  | .IPV6 => chars% "IPV6"
  | .SDRP => chars% "SDRP"
  | .IPV6_ROUTE => chars% "IPV6_ROUTE"
  | .IPV6_FRAG => chars% "IPV6_FRAG"
  | .IDRP => chars% "IDRP"
  | .RSVP => chars% "RSVP"
  | .GRE => chars% "GRE"
  | .DSR => chars% "DSR"
  | .BNA => chars% "BNA"
  | .ESP => chars% "ESP"
  | .AH => chars% "AH"
  | .I_NLSP => chars% "I_NLSP"
  | .SWIPE => chars% "SWIPE"
  | .NARP => chars% "NARP"
  | .MOBILE => chars% "MOBILE"
  | .TLSP => chars% "TLSP"
  | .SKIP => chars% "SKIP"
  | .IPV6_ICMP => chars% "IPV6_ICMP"
  | .IPV6_NONXT => chars% "IPV6_NONXT"
  | .IPV6_OPTS => chars% "IPV6_OPTS"
  | .CFTP => chars% "CFTP"
  | .SAT_EXPAK => chars% "SAT_EXPAK"
  | .KRYPTOLAN => chars% "KRYPTOLAN"
  | .RVD => chars% "RVD"
  | .IPPC => chars% "IPPC"
  | .SAT_MON => chars% "SAT_MON"
  | .VISA => chars% "VISA"
  | .IPCV => chars% "IPCV"
  | .CPNX => chars% "CPNX"
  | .CPHB => chars% "CPHB"
  | .WSN => chars% "WSN"
  | .PVP => chars% "PVP"
  | .BR_SAT_MON => chars% "BR_SAT_MON"
  | .SUN_ND => chars% "SUN_ND"
  | .WB_MON => chars% "WB_MON"
  | .WB_EXPAK => chars% "WB_EXPAK"
  | .ISO_IP => chars% "ISO_IP"
  | .VMTP => chars% "VMTP"
  | .SECURE_VMTP => chars% "SECURE_VMTP"
  | .VINES => chars% "VINES"
  | .TTP => chars% "TTP"
  | .IPTM => chars% "IPTM"
  | .NSFNET_IGP => chars% "NSFNET_IGP"
  | .DGP => chars% "DGP"
  | .TCF => chars% "TCF"
  | .EIGRP => chars% "EIGRP"
  | .OSPFIGP => chars% "OSPFIGP"
  | .SPRITE_RPC => chars% "SPRITE_RPC"
  | .LARP => chars% "LARP"
  | .MTP => chars% "MTP"
  | .AX_25 => chars% "AX_25"
  | .IPIP => chars% "IPIP"
  | .MICP => chars% "MICP"
  | .SCC_SP => chars% "SCC_SP"
  | .ETHERIP => chars% "ETHERIP"
  | .ENCAP => chars% "ENCAP"
  | .GMTP => chars% "GMTP"
  | .IFMP => chars% "IFMP"
  | .PNNI => chars% "PNNI"
  | .PIM => chars% "PIM"
  | .ARIS => chars% "ARIS"
  | .SCPS => chars% "SCPS"
  | .QNX => chars% "QNX"
  | .A_N => chars% "A_N"
  | .IPCOMP => chars% "IPCOMP"
  | .SNP => chars% "SNP"
  | .COMPAQ_PEER => chars% "COMPAQ_PEER"
  | .IPX_IN_IP => chars% "IPX_IN_IP"
  | .VRRP => chars% "VRRP"
  | .PGM => chars% "PGM"
  | .L2TP => chars% "L2TP"
  | .DDX => chars% "DDX"
  | .IATP => chars% "IATP"
  | .STP => chars% "STP"
  | .SRP => chars% "SRP"
  | .UTI => chars% "UTI"
  | .SMP => chars% "SMP"
  | .SM => chars% "SM"
  | .PTP => chars% "PTP"
  | .ISIS => chars% "ISIS"
  | .FIRE => chars% "FIRE"
  | .CRTP => chars% "CRTP"
  | .CRUDP => chars% "CRUDP"
  | .SSCOPMCE => chars% "SSCOPMCE"
  | .IPLT => chars% "IPLT"
  | .SPS => chars% "SPS"
  | .PIPE => chars% "PIPE"
  | .SCTP => chars% "SCTP"
  | .FC => chars% "FC"
  | .RSVP_E2E_IGNORE => chars% "RSVP_E2E_IGNORE"
  | .MOBILITY => chars% "MOBILITY"
  | .UDPLITE => chars% "UDPLITE"
  | .MPLS_IN_IP => chars% "MPLS_IN_IP"
  | .MANET => chars% "MANET"
  | .HIP => chars% "HIP"
  | .SHIM6 => chars% "SHIM6"
  | .WESP => chars% "WESP"
  | .ROHC => chars% "ROHC"
  | .ETHERNET => chars% "ETHERNET"
  | .USE => chars% "USE"
  | .RESERVED => chars% "RESERVED"
  | .OTHER v => chars% "OTHER(" ++ dbg v ++ [')']
  | .UNKNOWN => chars% "UNKNOWN"

/-- Not in the source: the values of `NetworkProtocol` without payload, to check its names for repetitions. [src/events/protocol.rs line 7] -/
def NetworkProtocol.all : List NetworkProtocol :=
  [.HOPOPT, .ICMP, .IGMP, .GGP, .IPV4, .ST, .TCP, .CBT, .EGP, .IGP, .BBN_RCC_MON, .NVP_II, .PUP, .ARGUS, .EMCON, .XNET, .CHAOS, .UDP, .MUX, .DCN_MEAS, .HMP, .PRM, .XNS_IDP, .TRUNK_1, .TRUNK_2, .LEAF_1, .LEAF_2, .RDP, .IRTP, .ISO_TP4, .NETBLT, .MFE_NSP, .MERIT_INP, .DCCP, .ThirdPC, .IDPR, .XTP, .DDP, .IDPR_CMTP, .TPpp, .IL, .IPV6, .SDRP, .IPV6_ROUTE, .IPV6_FRAG, .IDRP, .RSVP, .GRE, .DSR, .BNA, .ESP, .AH, .I_NLSP, .SWIPE, .NARP, .MOBILE, .TLSP, .SKIP, .IPV6_ICMP, .IPV6_NONXT, .IPV6_OPTS, .CFTP, .SAT_EXPAK, .KRYPTOLAN, .RVD, .IPPC, .SAT_MON, .VISA, .IPCV, .CPNX, .CPHB, .WSN, .PVP, .BR_SAT_MON, .SUN_ND, .WB_MON, .WB_EXPAK, .ISO_IP, .VMTP, .SECURE_VMTP, .VINES, .TTP, .IPTM, .NSFNET_IGP, .DGP, .TCF, .EIGRP, .OSPFIGP, .SPRITE_RPC, .LARP, .MTP, .AX_25, .IPIP, .MICP, .SCC_SP, .ETHERIP, .ENCAP, .GMTP, .IFMP, .PNNI, .PIM, .ARIS, .SCPS, .QNX, .A_N, .IPCOMP, .SNP, .COMPAQ_PEER, .IPX_IN_IP, .VRRP, .PGM, .L2TP, .DDX, .IATP, .STP, .SRP, .UTI, .SMP, .SM, .PTP, .ISIS, .FIRE, .CRTP, .CRUDP, .SSCOPMCE, .IPLT, .SPS, .PIPE, .SCTP, .FC, .RSVP_E2E_IGNORE, .MOBILITY, .UDPLITE, .MPLS_IN_IP, .MANET, .HIP, .SHIM6, .WESP, .ROHC, .ETHERNET, .USE, .RESERVED, .UNKNOWN]

/-- `WebProxyRuleCategory`, webproxy.rs lines 84-176. -/
inductive WebProxyRuleCategory where
  | Abortion
  | MatureContent
  | Alcohol
  | AlternativeSpirituality
  | ArtCulture
  | Auctions
  | AudioVideoClips
  | Trading
  | Economy
  | Charitable
  | OnlineChat
  | ChildPornography
  | CloudInfrastructure
  | CompromisedSites
  | InformationSecurity
  | ContentDeliveryNetworks
  | ControlledSubstances
  | Cryptocurrency
  | DynamicDNSHost
  | ECardInvitations
  | Education
  | Email
  | EmailMarketing
  | Entertainment
  | FileStorage
  | Finance
  | ForKids
  | Gambling
  | Games
  | Gore
  | Government
  | Hacking
  | Health
  | HumorJokes
  | Informational
  | InternetConnectedDevices
  | InternetTelephony
  | IntimateApparel
  | JobSearch
  | MaliciousOutboundDataBotnets
  | MaliciousSources
  | Marijuana
  | MediaSharing
  | Military
  | PotentiallyAdult
  | News
  | Forums
  | Nudity
  | BusinessApplications
  | OnlineMeetings
  | P2P
  | PersonalSites
  | PersonalsDating
  | Phishing
  | CopyrightConcerns
  | Placeholders
  | PoliticalAdvocacy
  | Pornography
  | PotentiallyUnwantedSoftware
  | ProxyAvoidance
  | RadioAudioStreams
  | RealEstate
  | Reference
  | Religion
  | RemoteAccess
  | Restaurants
  | QuestionableLegality
  | SearchEngines
  | SexEducation
  | SexualExpression
  | Shopping
  | SocialNetworking
  | DailyLiving
  | SoftwareDownloads
  | Spam
  | Sports
  | Suspicious
  | Technology
  | Tobacco
  | Translation
  | Travel
  | VideoStreams
  | Uncategorized
  | URLShorteners
  | Vehicles
  | Violence
  | Weapons
  | WebAds
  | WebHosting
  | WebInfrastructure
  | Others (v : Str)
  deriving DecidableEq

/-- `Display` of `WebProxyRuleCategory`, webproxy.rs lines 178-184: the derived Debug text. -/
def WebProxyRuleCategory.toStr (dbg : Str → Str) : WebProxyRuleCategory → Str
  | .Abortion => chars% "Abortion"
  | .MatureContent => chars% "MatureContent"
  | .Alcohol => chars% "Alcohol"
  | .AlternativeSpirituality => chars% "AlternativeSpirituality"
  | .ArtCulture => chars% "ArtCulture"
  | .Auctions => chars% "Auctions"
  | .AudioVideoClips => chars% "AudioVideoClips"
  | .Trading => chars% "Trading"
  | .Economy => chars% "Economy"
  | .Charitable => chars% "Charitable"
  | .OnlineChat => chars% "OnlineChat"
  | .ChildPornography => chars% "ChildPornography"
  | .CloudInfrastructure => chars% "CloudInfrastructure"
  | .CompromisedSites => chars% "CompromisedSites"
  | .InformationSecurity => chars% "InformationSecurity"
  | .ContentDeliveryNetworks => chars% "ContentDeliveryNetworks"
  | .ControlledSubstances => chars% "ControlledSubstances"
  | .Cryptocurrency => chars% "Cryptocurrency"
  | .DynamicDNSHost => chars% "DynamicDNSHost"
  | .ECardInvitations => chars% "ECardInvitations"
  | .Education => chars% "Education"
  | .Email => chars% "Email"
  | .EmailMarketing => chars% "EmailMarketing"
  | .Entertainment => chars% "Entertainment"
  | .FileStorage => chars% "FileStorage"
  | .Finance => chars% "Finance"
  | .ForKids => chars% "ForKids"
  | .Gambling => chars% "Gambling"
  | .Games => chars% "Games"
  | .Gore => chars% "Gore"
  | .Government => chars% "Government"
  | .Hacking => chars% "Hacking"
  | .Health => chars% "Health"
  | .HumorJokes => chars% "HumorJokes"
  | .Informational => chars% "Informational"
  | .InternetConnectedDevices => chars% "InternetConnectedDevices"
  | .InternetTelephony => chars% "InternetTelephony"
  | .IntimateApparel => chars% "IntimateApparel"
  | .JobSearch => chars% "JobSearch"
  | .MaliciousOutboundDataBotnets => chars% "MaliciousOutboundDataBotnets"
  | .MaliciousSources => chars% "MaliciousSources"
  | .Marijuana => chars% "Marijuana"
  | .MediaSharing => chars% "MediaSharing"
  | .Military => chars% "Military"
  | .PotentiallyAdult => chars% "PotentiallyAdult"
  | .News => chars% "News"
  | .Forums => chars% "Forums"
  | .Nudity => chars% "Nudity"
  | .BusinessApplications => chars% "BusinessApplications"
  | .OnlineMeetings => chars% "OnlineMeetings"
  | .P2P => chars% "P2P"
  | .PersonalSites => chars% "PersonalSites"
  | .PersonalsDating => chars% "PersonalsDating"
  | .Phishing => chars% "Phishing"
  | .CopyrightConcerns => chars% "CopyrightConcerns"
  | .Placeholders => chars% "Placeholders"
  | .PoliticalAdvocacy => chars% "PoliticalAdvocacy"
  | .Pornography => chars% "Pornography"
  | .PotentiallyUnwantedSoftware => chars% "PotentiallyUnwantedSoftware"
  | .ProxyAvoidance => chars% "ProxyAvoidance"
  | .RadioAudioStreams => chars% "RadioAudioStreams"
  | .RealEstate => chars% "RealEstate"
  | .Reference => chars% "Reference"
  | .Religion => chars% "Religion"
  | .RemoteAccess => chars% "RemoteAccess"
  | .Restaurants => chars% "Restaurants"
  | .QuestionableLegality => chars% "QuestionableLegality"
  | .SearchEngines => chars% "SearchEngines"
  | .SexEducation => chars% "SexEducation"
  | .SexualExpression => chars% "SexualExpression"
  | .Shopping => chars% "Shopping"
  | .SocialNetworking => chars% "SocialNetworking"
  | .DailyLiving => chars% "DailyLiving"
  | .SoftwareDownloads => chars% "SoftwareDownloads"
  | .Spam => chars% "Spam"
  | .Sports => chars% "Sports"
  | .Suspicious => chars% "Suspicious"
  | .Technology => chars% "Technology"
  | .Tobacco => chars% "Tobacco"
  | .Translation => chars% "Translation"
  | .Travel => chars% "Travel"
  | .VideoStreams => chars% "VideoStreams"
  | .Uncategorized => chars% "Uncategorized"
  | .URLShorteners => chars% "URLShorteners"
  | .Vehicles => chars% "Vehicles"
  | .Violence => chars% "Violence"
  | .Weapons => chars% "Weapons"
  | .WebAds => chars% "WebAds"
  | .WebHosting => chars% "WebHosting"
  | .WebInfrastructure => chars% "WebInfrastructure"
  | .Others v => chars% "Others(" ++ dbg v ++ [')']

/-- Not in the source: the values of `WebProxyRuleCategory` without payload, to check its names for repetitions. [src/events/webproxy.rs line 84] -/
def WebProxyRuleCategory.all : List WebProxyRuleCategory :=
  [.Abortion, .MatureContent, .Alcohol, .AlternativeSpirituality, .ArtCulture, .Auctions, .AudioVideoClips, .Trading, .Economy, .Charitable, .OnlineChat, .ChildPornography, .CloudInfrastructure, .CompromisedSites, .InformationSecurity, .ContentDeliveryNetworks, .ControlledSubstances, .Cryptocurrency, .DynamicDNSHost, .ECardInvitations, .Education, .Email, .EmailMarketing, .Entertainment, .FileStorage, .Finance, .ForKids, .Gambling, .Games, .Gore, .Government, .Hacking, .Health, .HumorJokes, .Informational, .InternetConnectedDevices, .InternetTelephony, .IntimateApparel, .JobSearch, .MaliciousOutboundDataBotnets, .MaliciousSources, .Marijuana, .MediaSharing, .Military, .PotentiallyAdult, .News, .Forums, .Nudity, .BusinessApplications, .OnlineMeetings, .P2P, .PersonalSites, .PersonalsDating, .Phishing, .CopyrightConcerns, .Placeholders, .PoliticalAdvocacy, .Pornography, .PotentiallyUnwantedSoftware, .ProxyAvoidance, .RadioAudioStreams, .RealEstate, .Reference, .Religion, .RemoteAccess, .Restaurants, .QuestionableLegality, .SearchEngines, .SexEducation, .SexualExpression, .Shopping, .SocialNetworking, .DailyLiving, .SoftwareDownloads, .Spam, .Sports, .Suspicious, .Technology, .Tobacco, .Translation, .Travel, .VideoStreams, .Uncategorized, .URLShorteners, .Vehicles, .Violence, .Weapons, .WebAds, .WebHosting, .WebInfrastructure]

/-- `IntrusionCategory`, intrusion.rs lines 66-128. -/
inductive IntrusionCategory where
  | XSS
  | SQL_INJECTION
  | PATH_TRANSVERSAL
  | WEB_ATTACK
  | DOS
  | SURVEILLANCE
  | TROJAN
  | VIRUS
  | SPYWARE
  | RAT_TOOL
  | RANSOMWARE
  | HACKTOOL
  | PROXY_AVOIDANCE
  | REMOTE_EXPLOIT
  | LOCAL_EXPLOIT
  | BOTNET
  | SPAM
  | PHISHING
  | CEO_FRAUD
  | SCAM
  | DATA_THEFT
  | BRUTE_FORCE
  | MISCONFIGURATION
  | AD_ATTACK
  | UNKNOWN
  | INFORMATION_LEAKAGE
  | ANOMALY
  | SESSION_FIXATION
  | PROTOCOL_ATTACK
  | REPUTATION
  deriving DecidableEq

/-- `Display` of `IntrusionCategory`, intrusion.rs lines 129-135: the derived Debug text. -/
def IntrusionCategory.toStr : IntrusionCategory → Str
  | .XSS => chars% "XSS"
  | .SQL_INJECTION => chars% "SQL_INJECTION"
  | .PATH_TRANSVERSAL => chars% "PATH_TRANSVERSAL"
  | .WEB_ATTACK => chars% "WEB_ATTACK"
  | .DOS => chars% "DOS"
  | .SURVEILLANCE => chars% "SURVEILLANCE"
  | .TROJAN => chars% "TROJAN"
  | .VIRUS => chars% "VIRUS"
  | .SPYWARE => chars% "SPYWARE"
  | .RAT_TOOL => chars% "RAT_TOOL"
  | .RANSOMWARE => chars% "RANSOMWARE"
  | .HACKTOOL => chars% "HACKTOOL"
  | .PROXY_AVOIDANCE => chars% "PROXY_AVOIDANCE"
  | .REMOTE_EXPLOIT => chars% "REMOTE_EXPLOIT"
  | .LOCAL_EXPLOIT => chars% "LOCAL_EXPLOIT"
  | .BOTNET => chars% "BOTNET"
  | .SPAM => chars% "SPAM"
  | .PHISHING => chars% "PHISHING"
  | .CEO_FRAUD => chars% "CEO_FRAUD"
  | .SCAM => chars% "SCAM"
  | .DATA_THEFT => chars% "DATA_THEFT"
  | .BRUTE_FORCE => chars% "BRUTE_FORCE"
  | .MISCONFIGURATION => chars% "MISCONFIGURATION"
  | .AD_ATTACK => chars% "AD_ATTACK"
  | .UNKNOWN => chars% "UNKNOWN"
  | .INFORMATION_LEAKAGE => chars% "INFORMATION_LEAKAGE"
  | .ANOMALY => chars% "ANOMALY"
  | .SESSION_FIXATION => chars% "SESSION_FIXATION"
  | .PROTOCOL_ATTACK => chars% "PROTOCOL_ATTACK"
  | .REPUTATION => chars% "REPUTATION"

/-- Not in the source: the values of `IntrusionCategory` without payload, to check its names for repetitions. [src/events/intrusion.rs line 66] -/
def IntrusionCategory.all : List IntrusionCategory :=
  [.XSS, .SQL_INJECTION, .PATH_TRANSVERSAL, .WEB_ATTACK, .DOS, .SURVEILLANCE, .TROJAN, .VIRUS, .SPYWARE, .RAT_TOOL, .RANSOMWARE, .HACKTOOL, .PROXY_AVOIDANCE, .REMOTE_EXPLOIT, .LOCAL_EXPLOIT, .BOTNET, .SPAM, .PHISHING, .CEO_FRAUD, .SCAM, .DATA_THEFT, .BRUTE_FORCE, .MISCONFIGURATION, .AD_ATTACK, .UNKNOWN, .INFORMATION_LEAKAGE, .ANOMALY, .SESSION_FIXATION, .PROTOCOL_ATTACK, .REPUTATION]

/-- `IntrusionOutcome`, intrusion.rs lines 45-54. -/
inductive IntrusionOutcome where
  | DETECTED
  | BLOCKED
  | MONITOR
  | IMPACTED
  deriving DecidableEq

/-- `Display` of `IntrusionOutcome`, intrusion.rs lines 55-61: the derived Debug text. -/
def IntrusionOutcome.toStr : IntrusionOutcome → Str
  | .DETECTED => chars% "DETECTED"
  | .BLOCKED => chars% "BLOCKED"
  | .MONITOR => chars% "MONITOR"
  | .IMPACTED => chars% "IMPACTED"

/-- Not in the source: the values of `IntrusionOutcome` without payload, to check its names for repetitions. [src/events/intrusion.rs line 45] -/
def IntrusionOutcome.all : List IntrusionOutcome :=
  [.DETECTED, .BLOCKED, .MONITOR, .IMPACTED]

/-- `FirewallOutcome`, firewall.rs lines 53-66. -/
inductive FirewallOutcome where
  | BLOCK
  | ALLOW
  | END
  | STATS
  | OPEN
  | UNKNOWN
  deriving DecidableEq

/-- `Display` of `FirewallOutcome`, firewall.rs lines 82-88: the derived Debug text. -/
def FirewallOutcome.toStr : FirewallOutcome → Str
  | .BLOCK => chars% "BLOCK"
  | .ALLOW => chars% "ALLOW"
  | .END => chars% "END"
  | .STATS => chars% "STATS"
  | .OPEN => chars% "OPEN"
  | .UNKNOWN => chars% "UNKNOWN"

/-- Not in the source: the values of `FirewallOutcome` without payload, to check its names for repetitions. [src/events/firewall.rs line 53] -/
def FirewallOutcome.all : List FirewallOutcome :=
  [.BLOCK, .ALLOW, .END, .STATS, .OPEN, .UNKNOWN]

/-- `WebProxyOutcome`, webproxy.rs lines 66-73. -/
inductive WebProxyOutcome where
  | BLOCK
  | ALLOW
  | UNKNOWN
  deriving DecidableEq

/-- `Display` of `WebProxyOutcome`, webproxy.rs lines 74-80: the derived Debug text. -/
def WebProxyOutcome.toStr : WebProxyOutcome → Str
  | .BLOCK => chars% "BLOCK"
  | .ALLOW => chars% "ALLOW"
  | .UNKNOWN => chars% "UNKNOWN"

/-- Not in the source: the values of `WebProxyOutcome` without payload, to check its names for repetitions. [src/events/webproxy.rs line 66] -/
def WebProxyOutcome.all : List WebProxyOutcome :=
  [.BLOCK, .ALLOW, .UNKNOWN]

/-- `WebServerOutcome`, webserver.rs lines 89-96. -/
inductive WebServerOutcome where
  | BLOCK
  | ALLOW
  | UNKNOWN
  deriving DecidableEq

/-- `Display` of `WebServerOutcome`, webserver.rs lines 97-103: the derived Debug text. -/
def WebServerOutcome.toStr : WebServerOutcome → Str
  | .BLOCK => chars% "BLOCK"
  | .ALLOW => chars% "ALLOW"
  | .UNKNOWN => chars% "UNKNOWN"

/-- Not in the source: the values of `WebServerOutcome` without payload, to check its names for repetitions. [src/events/webserver.rs line 89] -/
def WebServerOutcome.all : List WebServerOutcome :=
  [.BLOCK, .ALLOW, .UNKNOWN]

/-- `LoginOutcome`, auth.rs lines 38-47. -/
inductive LoginOutcome where
  | SUCCESS
  | FAIL
  | LOCKOUT
  | ESTABLISH
  deriving DecidableEq

/-- `Display` of `LoginOutcome`, auth.rs lines 177-183: the derived Debug text. -/
def LoginOutcome.toStr : LoginOutcome → Str
  | .SUCCESS => chars% "SUCCESS"
  | .FAIL => chars% "FAIL"
  | .LOCKOUT => chars% "LOCKOUT"
  | .ESTABLISH => chars% "ESTABLISH"

/-- Not in the source: the values of `LoginOutcome` without payload, to check its names for repetitions. [src/events/auth.rs line 38] -/
def LoginOutcome.all : List LoginOutcome :=
  [.SUCCESS, .FAIL, .LOCKOUT, .ESTABLISH]

/-- `DnsEventType`, dns.rs lines 43-46. -/
inductive DnsEventType where
  | ANSWER
  | QUERY
  deriving DecidableEq

/-- `Display` of `DnsEventType`, dns.rs lines 48-54: the derived Debug text. -/
def DnsEventType.toStr : DnsEventType → Str
  | .ANSWER => chars% "ANSWER"
  | .QUERY => chars% "QUERY"

/-- Not in the source: the values of `DnsEventType` without payload, to check its names for repetitions. [src/events/dns.rs line 43] -/
def DnsEventType.all : List DnsEventType :=
  [.ANSWER, .QUERY]

/-- `DnsRecordType`, dns.rs lines 57-68. -/
inductive DnsRecordType where
  | A
  | AAAA
  | CNAME
  | MX
  | NS
  | PTR
  | CERT
  | SRV
  | TXT
  | SOA
  deriving DecidableEq

/-- `Display` of `DnsRecordType`, dns.rs lines 70-76: the derived Debug text. -/
def DnsRecordType.toStr : DnsRecordType → Str
  | .A => chars% "A"
  | .AAAA => chars% "AAAA"
  | .CNAME => chars% "CNAME"
  | .MX => chars% "MX"
  | .NS => chars% "NS"
  | .PTR => chars% "PTR"
  | .CERT => chars% "CERT"
  | .SRV => chars% "SRV"
  | .TXT => chars% "TXT"
  | .SOA => chars% "SOA"

/-- Not in the source: the values of `DnsRecordType` without payload, to check its names for repetitions. [src/events/dns.rs line 57] -/
def DnsRecordType.all : List DnsRecordType :=
  [.A, .AAAA, .CNAME, .MX, .NS, .PTR, .CERT, .SRV, .TXT, .SOA]

/-- `DhcpRecordType`, dhcp.rs lines 39-43. -/
inductive DhcpRecordType where
  | Request
  | Assign
  | Release
  deriving DecidableEq

/-- `Display` of `DhcpRecordType`, dhcp.rs lines 45-49: the derived Debug text. -/
def DhcpRecordType.toStr : DhcpRecordType → Str
  | .Request => chars% "Request"
  | .Assign => chars% "Assign"
  | .Release => chars% "Release"

/-- Not in the source: the values of `DhcpRecordType` without payload, to check its names for repetitions. [src/events/dhcp.rs line 39] -/
def DhcpRecordType.all : List DhcpRecordType :=
  [.Request, .Assign, .Release]

/-- `HttpMethod`, common.rs lines 5-15. -/
inductive HttpMethod where
  | UNKNOWN (v : Str)
  | GET
  | POST
  | PUT
  | PATCH
  | OPTIONS
  | CONNECT
  | HEAD
  | UNDEFINED
  deriving DecidableEq

/-- `Display` of `HttpMethod`, common.rs lines 62-68: the derived Debug text. -/
def HttpMethod.toStr (dbg : Str → Str) : HttpMethod → Str
  | .UNKNOWN v => chars% "UNKNOWN(" ++ dbg v ++ [')']
  | .GET => chars% "GET"
  | .POST => chars% "POST"
  | .PUT => chars% "PUT"
  | .PATCH => chars% "PATCH"
  | .OPTIONS => chars% "OPTIONS"
  | .CONNECT => chars% "CONNECT"
  | .HEAD => chars% "HEAD"
  | .UNDEFINED => chars% "UNDEFINED"

/-- Not in the source: the values of `HttpMethod` without payload, to check its names for repetitions. [src/events/common.rs line 5] -/
def HttpMethod.all : List HttpMethod :=
  [.GET, .POST, .PUT, .PATCH, .OPTIONS, .CONNECT, .HEAD, .UNDEFINED]

/-- `WebProtocol`, common.rs lines 18-25. -/
inductive WebProtocol where
  | UNKNOWN (v : Str)
  | HTTP
  | HTTPS
  | FTP
  | WS
  | WSS
  deriving DecidableEq

/-- `Display` of `WebProtocol`, common.rs lines 26-32: the derived Debug text. -/
def WebProtocol.toStr (dbg : Str → Str) : WebProtocol → Str
  | .UNKNOWN v => chars% "UNKNOWN(" ++ dbg v ++ [')']
  | .HTTP => chars% "HTTP"
  | .HTTPS => chars% "HTTPS"
  | .FTP => chars% "FTP"
  | .WS => chars% "WS"
  | .WSS => chars% "WSS"

/-- Not in the source: the values of `WebProtocol` without payload, to check its names for repetitions. [src/events/common.rs line 18] -/
def WebProtocol.all : List WebProtocol :=
  [.HTTP, .HTTPS, .FTP, .WS, .WSS]

/-- `parse_protocol_id`, protocol.rs lines 161-308. -/
def parseProtocolId (id : BitVec 16) : NetworkProtocol :=
  match id.toNat with
  | 0 => .HOPOPT
  | 1 => .ICMP
  | 2 => .IGMP
  | 3 => .GGP
  | 4 => .IPV4
  | 5 => .ST
  | 6 => .TCP
  | 7 => .CBT
  | 8 => .EGP
  | 9 => .IGP
  | 10 => .BBN_RCC_MON
  | 11 => .NVP_II
  | 12 => .PUP
  | 13 => .ARGUS
  | 14 => .EMCON
  | 15 => .XNET
  | 16 => .CHAOS
  | 17 => .UDP
  | 18 => .MUX
  | 19 => .DCN_MEAS
  | 20 => .HMP
  | 21 => .PRM
  | 22 => .XNS_IDP
  | 23 => .TRUNK_1
  | 24 => .TRUNK_2
  | 25 => .LEAF_1
  | 26 => .LEAF_2
  | 27 => .RDP
  | 28 => .IRTP
  | 29 => .ISO_TP4
  | 30 => .NETBLT
  | 31 => .MFE_NSP
  | 32 => .MERIT_INP
  | 33 => .DCCP
  | 34 => .ThirdPC
  | 35 => .IDPR
  | 36 => .XTP
  | 37 => .DDP
  | 38 => .IDPR_CMTP
  | 39 => .TPpp
  | 40 => .IL
  | 41 => .IPV6
  | 42 => .SDRP
  | 43 => .IPV6_ROUTE
  | 44 => .IPV6_FRAG
  | 45 => .IDRP
  | 46 => .RSVP
  | 47 => .GRE
  | 48 => .DSR
  | 49 => .BNA
  | 50 => .ESP
  | 51 => .AH
  | 52 => .I_NLSP
  | 53 => .SWIPE
  | 54 => .NARP
  | 55 => .MOBILE
  | 56 => .TLSP
  | 57 => .SKIP
  | 58 => .IPV6_ICMP
  | 59 => .IPV6_NONXT
  | 60 => .IPV6_OPTS
  | 62 => .CFTP
  | 64 => .SAT_EXPAK
  | 65 => .KRYPTOLAN
  | 66 => .RVD
  | 67 => .IPPC
  | 69 => .SAT_MON
  | 70 => .VISA
  | 71 => .IPCV
  | 72 => .CPNX
  | 73 => .CPHB
  | 74 => .WSN
  | 75 => .PVP
  | 76 => .BR_SAT_MON
  | 77 => .SUN_ND
  | 78 => .WB_MON
  | 79 => .WB_EXPAK
  | 80 => .ISO_IP
  | 81 => .VMTP
  | 82 => .SECURE_VMTP
  | 83 => .VINES
  | 84 => .IPTM
  | 85 => .NSFNET_IGP
  | 86 => .DGP
  | 87 => .TCF
  | 88 => .EIGRP
  | 89 => .OSPFIGP
  | 90 => .SPRITE_RPC
  | 91 => .LARP
  | 92 => .MTP
  | 93 => .AX_25
  | 94 => .IPIP
  | 95 => .MICP
  | 96 => .SCC_SP
  | 97 => .ETHERIP
  | 98 => .ENCAP
  | 100 => .GMTP
  | 101 => .IFMP
  | 102 => .PNNI
  | 103 => .PIM
  | 104 => .ARIS
  | 105 => .SCPS
  | 106 => .QNX
  | 107 => .A_N
  | 108 => .IPCOMP
  | 109 => .SNP
  | 110 => .COMPAQ_PEER
  | 111 => .IPX_IN_IP
  | 112 => .VRRP
  | 113 => .PGM
  | 115 => .L2TP
  | 116 => .DDX
  | 117 => .IATP
  | 118 => .STP
  | 119 => .SRP
  | 120 => .UTI
  | 121 => .SMP
  | 122 => .SM
  | 123 => .PTP
  | 124 => .ISIS
  | 125 => .FIRE
  | 126 => .CRTP
  | 127 => .CRUDP
  | 128 => .SSCOPMCE
  | 129 => .IPLT
  | 130 => .SPS
  | 131 => .PIPE
  | 132 => .SCTP
  | 133 => .FC
  | 134 => .RSVP_E2E_IGNORE
  | 135 => .MOBILITY
  | 136 => .UDPLITE
  | 137 => .MPLS_IN_IP
  | 138 => .MANET
  | 139 => .HIP
  | 140 => .SHIM6
  | 141 => .WESP
  | 142 => .ROHC
  | 143 => .ETHERNET
  | 253 => .USE
  | 254 => .USE
  | 255 => .RESERVED
  | _ => .UNKNOWN

end USiem
