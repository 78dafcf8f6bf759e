#!/usr/bin/env python3
"""Generate lean/Verif/Model/Debug.lean from the derive(Debug) types of the crate that occur in
messages (read as text)."""
import re, os
H = os.path.dirname(os.path.abspath(__file__))
A = open('/repo/src/network/attributes.rs').read()
M = open('/repo/src/network/models.rs').read()

def camel(s):
    p = s.split('_')
    return p[0] + ''.join(x.capitalize() for x in p[1:])

def lower(s):
    return {'QWord': 'qWord', 'QQ': 'qq'}.get(s, s[0].lower() + s[1:])

PRIM = {'bool': 'dBool', 'u8': 'dUnsigned', 'u16': 'dUnsigned', 'u32': 'dUnsigned',
        'u64': 'dUnsigned', 'i8': 'dSigned', 'i32': 'dSigned', 'i64': 'dSigned', 'f32': 'dF32',
        'String': 'dStr'}

def fn(t):
    t = t.strip()
    if t in PRIM: return PRIM[t]
    for pat, f in ((r'Box<(.*)>', None), (r'Option<(.*)>', 'dOption'), (r'Vec<(.*)>', 'dList'),
                   (r'\[(.*); 3\]', 'dArray3')):
        m = re.fullmatch(pat, t)
        if m:
            inner = fn(m.group(1))
            return inner if f is None else f'({f} {inner})'
    return 'd' + t

def lines(src, a, b):
    return src.count('\n', 0, a) + 1, src.count('\n', 0, b) + 1

structs = {}
for fname, src in (('src/network/attributes.rs', A), ('src/network/models.rs', M)):
    for m in re.finditer(r'#\[derive\(([^)]*)\)\]\npub struct (\w+) \{\n(.*?)\n\}', src, re.S):
        assert 'Debug' in m.group(1)
        body = re.sub(r'//[^\n]*', '', m.group(3))
        fields = re.findall(r'pub (\w+): ([^\n]+),', body)
        a, b = lines(src, m.start(2), m.end())
        structs[m.group(2)] = (fields, f'{fname}:{a}-{b}')

def args(s):
    r, depth, cur = [], 0, ''
    for ch in s:
        depth += (ch in '<[(') - (ch in '>])')
        if ch == ',' and depth == 0:
            r.append(cur.strip()); cur = ''
        else: cur += ch
    return r + [cur.strip()]

def fill(prefix, parts, suffix, width=98):
    out, line = [], prefix
    for i, p in enumerate(parts):
        p = p + (', ' if i + 1 < len(parts) else suffix)
        if len(line) + len(p.rstrip()) > width:
            out.append(line.rstrip()); line = '    ' + p
        else: line += p
    return '\n'.join(out + [line.rstrip()])

out = []
for name in ['Vector3f', 'Vector3i', 'Quaternion', 'Rotation', 'ActiveActor', 'CamSettings',
             'ClubColors', 'AppliedDamage', 'DamageState', 'Demolish', 'DemolishExtended',
             'DemolishFx', 'Explosion', 'ExtendedExplosion', 'Loadout', 'TeamLoadout', 'StatEvent',
             'MusicStinger', 'Pickup', 'PickupNew', 'Welded', 'TeamPaint', 'RigidBody', '@RemoteId',
             'UniqueId', 'Reservation', 'PrivateMatchSettings', '@ProductValue', 'Product',
             'LoadoutsOnline', 'RepStatTitle', 'PickupInfo', 'Impulse', 'ReplicatedBoost',
             'LogoData', '@Attribute', '@AttributeTag']:
    if name[0] != '@':
        fields, cite = structs[name]
        out += [f'/-- `{name}`, `{cite}`. -/', f'def d{name} (v : {name}) : DVal :=',
                fill(f'  record "{name}" [', [f'("{f}", {fn(t)} v.{camel(f)})' for f, t in fields], ']'),
                '']
        continue
    name = name[1:]
    m = re.search(r'(#\[derive\([^)]*Debug[^)]*\)\]\n)pub(?:\(crate\))? enum ' + name + r' \{\n(.*?)\n\}', A, re.S)
    a, b = lines(A, m.end(1), m.end())
    body = re.sub(r'//[^\n]*', '', m.group(2))
    body = re.sub(r'#\[serde\([^\]]*\)\]', '', body)
    out += [f'/-- `{name}`, `src/network/attributes.rs:{a}-{b}`. -/', f'def d{name} : {name} → DVal']
    for v in re.finditer(r'(\w+)(?:\(([^\n]*)\))?,', body + ','):
        n, l = v.group(1), lower(v.group(1))
        if not v.group(2): out.append(f'  | .{l} => dUnit "{n}"'); continue
        ts = args(v.group(2))
        if name == 'RemoteId' and ts[0] in structs:
            fs, _ = structs[ts[0]]
            out.append(fill(f'  | .{l} {" ".join(camel(f) for f, _ in fs)} => call "{n}" [record "{ts[0]}" [',
                            [f'("{f}", {fn(t)} {camel(f)})' for f, t in fs], ']]'))
            continue
        xs = [f'x{i}' for i in range(len(ts))] if len(ts) > 1 else ['x']
        out.append(fill(f'  | .{l} {" ".join(xs)} => call "{n}" [', [f'{fn(t)} {x}' for t, x in zip(ts, xs)], ']'))
    out.append('')

tail = '''/-- The texts that messages contain. -/
def fmt (s : Std) : Display.Fmt where
  f32 := s.display
  tag x := (dAttributeTag x).show s
  attr x := (dAttribute x).show s
  location x := (dOption dVector3i x).show s
  rotation x := (dOption dRotation x).show s

end Boxcars.Debug
'''
open(os.path.join(H, '../lean/Verif/Model/Debug.lean'), 'w').write(
    open(os.path.join(H, 'debug_head.txt')).read() + '\n'.join(out) + '\n' + tail)
