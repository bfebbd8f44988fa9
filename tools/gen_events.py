#!/usr/bin/env python3
"""Writes lean/Verif/Model/EventEnums.lean: the enumerations of src/events whose Display is their Debug name, and parse_protocol_id."""
import re
R='/repo/src/events/'
def load(f): return open(R+f).read().split('\n')
def enum(f,name):
    s=load(f)
    i=next(k for k,l in enumerate(s) if re.match(r'pub enum %s '%name,l))
    j=i
    while s[j]!='}': j+=1
    vs=[]
    for l in s[i+1:j]:
        m=re.match(r'\s+(\w+)(\((\w+)\))?,$',l)
        if m: vs.append((m.group(1),bool(m.group(2))))
    return vs,(i+1,j+1)
def display(f,name):
    s=load(f)
    i=next(k for k,l in enumerate(s) if l.startswith('impl std::fmt::Display for %s '%name))
    j=i
    while s[j]!='}': j+=1
    return (i+1,j+1)
o=[];w=o.append
w('import Verif.Rust.Prim')
w('/- Model of the enumerations of /repo/src/events that print as their Debug name. Written by tools/gen_events.py.')
w('A variant keeps its Rust name. `dbg` is the Debug text of a string (quoted and escaped); which characters it escapes is left open. -/')
w('namespace USiem\n')
for f,n,lean in [('protocol.rs','NetworkProtocol','NetworkProtocol'),('webproxy.rs','WebProxyRuleCategory','WebProxyRuleCategory'),
  ('intrusion.rs','IntrusionCategory','IntrusionCategory'),('intrusion.rs','IntrusionOutcome','IntrusionOutcome'),
  ('firewall.rs','FirewallOutcome','FirewallOutcome'),('webproxy.rs','WebProxyOutcome','WebProxyOutcome'),
  ('webserver.rs','WebServerOutcome','WebServerOutcome'),('auth.rs','LoginOutcome','LoginOutcome'),
  ('dns.rs','DnsEventType','DnsEventType'),('dns.rs','DnsRecordType','DnsRecordType'),('dhcp.rs','DhcpRecordType','DhcpRecordType'),
  ('common.rs','HttpMethod','HttpMethod'),('common.rs','WebProtocol','WebProtocol')]:
    vs,(a,b)=enum(f,n); c,d=display(f,n)
    w(f'/-- `{n}`, {f} lines {a}-{b}. -/')
    w(f'inductive {lean} where')
    for v,p in vs: w(f'  | {v}'+(' (v : Str)' if p else ''))
    w('  deriving DecidableEq\n')
    pay=any(p for _,p in vs)
    w(f'/-- `Display` of `{n}`, {f} lines {c}-{d}: the derived Debug text. -/')
    w(f'def {lean}.toStr '+('(dbg : Str → Str) ' if pay else '')+f': {lean} → Str')
    for v,p in vs:
        if p: w(f'  | .{v} v => chars% "{v}(" ++ dbg v ++ [\')\']')
        else: w(f'  | .{v} => chars% "{v}"')
    w('')
    w(f'/-- Not in the source: the values of `{n}` without payload, to check its names for repetitions. -/')
    w(f'def {lean}.all : List {lean} :=\n  ['+', '.join('.'+v for v,p in vs if not p)+']')
    w('')
s=load('protocol.rs')
i=next(k for k,l in enumerate(s) if l.startswith('pub fn parse_protocol_id'))
j=i
while s[j]!='}': j+=1
w(f'/-- `parse_protocol_id`, protocol.rs lines {i+1}-{j+1}. -/')
w('def parseProtocolId (id : BitVec 16) : NetworkProtocol :=\n  match id.toNat with')
for l in s[i:j]:
    m=re.match(r'\s+(\d+|_) => NetworkProtocol::(\w+),',l)
    if m: w(f'  | {m.group(1)} => .{m.group(2)}')
w('\nend USiem')
open('/verif/lean/Verif/Model/EventEnums.lean','w').write('\n'.join(o)+'\n')
