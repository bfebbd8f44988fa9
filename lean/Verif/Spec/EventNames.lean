import Verif.Model.Events
/- Vocabulary for the names of protocols and HTTP methods. -/
namespace USiem.Spec

/-- The IANA list of protocol numbers: number and keyword. The numbers 61, 63, 68, 99 and 114 ("any ...") have no keyword; for
124, 135, 253 and 254 the first word of the description is given. -/
def ianaProtocols : List (Nat × Str) :=
  [(0, chars% "HOPOPT"), (1, chars% "ICMP"), (2, chars% "IGMP"), (3, chars% "GGP"), (4, chars% "IPv4"), (5, chars% "ST"),
   (6, chars% "TCP"), (7, chars% "CBT"), (8, chars% "EGP"), (9, chars% "IGP"), (10, chars% "BBN-RCC-MON"),
   (11, chars% "NVP-II"), (12, chars% "PUP"), (13, chars% "ARGUS"), (14, chars% "EMCON"), (15, chars% "XNET"),
   (16, chars% "CHAOS"), (17, chars% "UDP"), (18, chars% "MUX"), (19, chars% "DCN-MEAS"), (20, chars% "HMP"),
   (21, chars% "PRM"), (22, chars% "XNS-IDP"), (23, chars% "TRUNK-1"), (24, chars% "TRUNK-2"), (25, chars% "LEAF-1"),
   (26, chars% "LEAF-2"), (27, chars% "RDP"), (28, chars% "IRTP"), (29, chars% "ISO-TP4"), (30, chars% "NETBLT"),
   (31, chars% "MFE-NSP"), (32, chars% "MERIT-INP"), (33, chars% "DCCP"), (34, chars% "3PC"), (35, chars% "IDPR"),
   (36, chars% "XTP"), (37, chars% "DDP"), (38, chars% "IDPR-CMTP"), (39, chars% "TP++"), (40, chars% "IL"),
   (41, chars% "IPv6"), (42, chars% "SDRP"), (43, chars% "IPv6-Route"), (44, chars% "IPv6-Frag"), (45, chars% "IDRP"),
   (46, chars% "RSVP"), (47, chars% "GRE"), (48, chars% "DSR"), (49, chars% "BNA"), (50, chars% "ESP"), (51, chars% "AH"),
   (52, chars% "I-NLSP"), (53, chars% "SWIPE"), (54, chars% "NARP"), (55, chars% "MOBILE"), (56, chars% "TLSP"),
   (57, chars% "SKIP"), (58, chars% "IPv6-ICMP"), (59, chars% "IPv6-NoNxt"), (60, chars% "IPv6-Opts"), (62, chars% "CFTP"),
   (64, chars% "SAT-EXPAK"), (65, chars% "KRYPTOLAN"), (66, chars% "RVD"), (67, chars% "IPPC"), (69, chars% "SAT-MON"),
   (70, chars% "VISA"), (71, chars% "IPCV"), (72, chars% "CPNX"), (73, chars% "CPHB"), (74, chars% "WSN"), (75, chars% "PVP"),
   (76, chars% "BR-SAT-MON"), (77, chars% "SUN-ND"), (78, chars% "WB-MON"), (79, chars% "WB-EXPAK"), (80, chars% "ISO-IP"),
   (81, chars% "VMTP"), (82, chars% "SECURE-VMTP"), (83, chars% "VINES"), (84, chars% "IPTM"), (85, chars% "NSFNET-IGP"),
   (86, chars% "DGP"), (87, chars% "TCF"), (88, chars% "EIGRP"), (89, chars% "OSPFIGP"), (90, chars% "Sprite-RPC"),
   (91, chars% "LARP"), (92, chars% "MTP"), (93, chars% "AX.25"), (94, chars% "IPIP"), (95, chars% "MICP"),
   (96, chars% "SCC-SP"), (97, chars% "ETHERIP"), (98, chars% "ENCAP"), (100, chars% "GMTP"), (101, chars% "IFMP"),
   (102, chars% "PNNI"), (103, chars% "PIM"), (104, chars% "ARIS"), (105, chars% "SCPS"), (106, chars% "QNX"),
   (107, chars% "A/N"), (108, chars% "IPComp"), (109, chars% "SNP"), (110, chars% "Compaq-Peer"), (111, chars% "IPX-in-IP"),
   (112, chars% "VRRP"), (113, chars% "PGM"), (115, chars% "L2TP"), (116, chars% "DDX"), (117, chars% "IATP"),
   (118, chars% "STP"), (119, chars% "SRP"), (120, chars% "UTI"), (121, chars% "SMP"), (122, chars% "SM"), (123, chars% "PTP"),
   (124, chars% "ISIS"), (125, chars% "FIRE"), (126, chars% "CRTP"), (127, chars% "CRUDP"), (128, chars% "SSCOPMCE"),
   (129, chars% "IPLT"), (130, chars% "SPS"), (131, chars% "PIPE"), (132, chars% "SCTP"), (133, chars% "FC"),
   (134, chars% "RSVP-E2E-IGNORE"), (135, chars% "Mobility"), (136, chars% "UDPLite"), (137, chars% "MPLS-in-IP"),
   (138, chars% "manet"), (139, chars% "HIP"), (140, chars% "Shim6"), (141, chars% "WESP"), (142, chars% "ROHC"),
   (143, chars% "Ethernet"), (253, chars% "Use"), (254, chars% "Use"), (255, chars% "Reserved")]

/-- The Rust name of a keyword: capital letters, `_` for `-`, `/` and `.`; two keywords that are no identifiers are spelt out. -/
def rustName (keyword : Str) : Str :=
  if keyword = chars% "3PC" then chars% "ThirdPC"
  else if keyword = chars% "TP++" then chars% "TPpp"
  else keyword.map (fun c => if c = '-' ∨ c = '/' ∨ c = '.' then '_' else asciiUpper c)

/-- The HTTP methods of the enumeration that have a fixed name. -/
def httpMethods : List (Str × HttpMethod) :=
  [(chars% "GET", .GET), (chars% "POST", .POST), (chars% "PUT", .PUT), (chars% "PATCH", .PATCH), (chars% "OPTIONS", .OPTIONS),
   (chars% "CONNECT", .CONNECT), (chars% "HEAD", .HEAD), (chars% "UNDEFINED", .UNDEFINED)]

/-- All characters are ASCII. -/
def Ascii (s : Str) : Prop := ∀ c ∈ s, c.toNat < 128

/-- What the proofs use of `str::to_uppercase`: on ASCII texts it is the ASCII mapping. -/
def UpperCases (upper : Str → Str) : Prop := ∀ s, Ascii s → upper s = s.map asciiUpper

end USiem.Spec
