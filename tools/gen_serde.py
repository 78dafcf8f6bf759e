#!/usr/bin/env python3
"""Generate lean/Verif/Model/Serde.lean from the derive(Serialize, Deserialize)
types of the crate (read as text)."""
import re

A = open('/repo/src/network/attributes.rs').read()
M = open('/repo/src/network/models.rs').read()

def camel(s):
    p = s.split('_')
    r = p[0] + ''.join(x.capitalize() for x in p[1:])
    return 'attr' if r == 'attribute' else r

def lower(s):
    special = {'QWord': 'qWord', 'QQ': 'qq'}
    return special.get(s, s[0].lower() + s[1:])

PRIM = {'bool': 'cBool', 'u8': 'cU8', 'i8': 'cI8', 'u16': 'cU16', 'i32': 'cI32',
        'u32': 'cU32', 'f32': 'cF32', 'String': 'cStr', 'ActorId': 'cI32',
        'ObjectId': 'cI32', 'StreamId': 'cI32'}

def codec(t):
    t = t.strip()
    if t in PRIM: return PRIM[t]
    m = re.fullmatch(r'Box<(.*)>', t)
    if m: return codec(m.group(1))
    m = re.fullmatch(r'Option<(.*)>', t)
    if m: return f'(cOption {codec(m.group(1))})'
    m = re.fullmatch(r'Vec<(.*)>', t)
    if m: return f'(cList {codec(m.group(1))})'
    m = re.fullmatch(r'\[(.*); 3\]', t)
    if m: return f'(cArray3 {codec(m.group(1))})'
    return 'c' + t

def lines(src, start, end):
    return src.count('\n', 0, start) + 1, src.count('\n', 0, end) + 1

structs = {}
for fname, src in (('src/network/attributes.rs', A), ('src/network/models.rs', M)):
    for m in re.finditer(r'#\[derive\(([^)]*)\)\]\npub struct (\w+) \{\n(.*?)\n\}', src, re.S):
        if 'Serialize' not in m.group(1): continue
        body = m.group(3)
        body = re.sub(r'//[^\n]*', '', body)
        fields = []
        for f in re.finditer(r'((?:#\[serde\([^\]]*\)\]\s*)?)pub (\w+): ([^\n]+),', body, re.S):
            fields.append((f.group(2), f.group(3), 'display_it' in f.group(1)))
        a, b = lines(src, m.start(2), m.end())
        structs[m.group(2)] = (fields, f'{fname}:{a}-{b}')

out = []
def emit_struct(name):
    fields, cite = structs[name]
    out.append(f'/-- `{name}`, `{cite}`. -/')
    out.append(f'def c{name} : Codec {name} where')
    out.append('  ser v := .map [' + ',\n    '.join(
        f'("{f}", {codec(t)}.ser v.{camel(f)})' for f, t, _ in fields) + ']')
    out.append('  de j := do')
    for f, t, _ in fields:
        out.append(f'    let {camel(f)} ← field "{f}" {codec(t)} j')
    out.append('    some ⟨' + ', '.join(camel(f) for f, _, _ in fields) + '⟩')
    out.append('')


order = ['Vector3f', 'Vector3i', 'Quaternion', 'Rotation', 'Trajectory', 'NewActor',
         'ActiveActor', 'CamSettings', 'ClubColors', 'AppliedDamage', 'DamageState',
         'Demolish', 'DemolishExtended', 'DemolishFx', 'Explosion', 'ExtendedExplosion',
         'Loadout', 'TeamLoadout', 'StatEvent', 'MusicStinger', 'Pickup', 'PickupNew',
         'Welded', 'TeamPaint', 'RigidBody', '@RemoteId', 'UniqueId', 'Reservation',
         'PrivateMatchSettings', '@ProductValue', 'Product', 'LoadoutsOnline',
         'RepStatTitle', 'PickupInfo', 'Impulse', 'ReplicatedBoost', 'LogoData',
         '@Attribute', 'UpdatedAttribute', 'Frame']

def enum_body(name):
    m = re.search(r'pub enum ' + name + r' \{\n(.*?)\n\}', A, re.S)
    a, b = lines(A, m.start(), m.end())
    body = re.sub(r'//[^\n]*', '', m.group(1))
    vs = []
    for v in re.finditer(r'((?:#\[serde\((?:[^\]]*)\)\]\s*)?)(\w+)(?:\(([^\n]*)\))?,\n?', body, re.S):
        disp = 'display_it' in v.group(1)
        args = []
        if v.group(3):
            depth = 0; cur = ''
            for ch in v.group(3):
                if ch in '<[(': depth += 1
                if ch in '>])': depth -= 1
                if ch == ',' and depth == 0:
                    args.append(cur.strip()); cur = ''
                else: cur += ch
            args.append(cur.strip())
        vs.append((v.group(2), args, disp))
    return vs, f'src/network/attributes.rs:{a}-{b}'

def emit_enum(name):
    vs, cite = enum_body(name)
    ser = []; de = []
    for v, args, disp in vs:
        l = lower(v)
        if not args:
            ser.append(f'    | .{l} => .unitVariant "{v}"')
            de.append(('unit', v, l, None))
        elif disp:
            c = 'cI64Str' if args[0] == 'i64' else 'cU64Str'
            ser.append(f'    | .{l} x => .variant "{v}" ({c}.ser x)')
            de.append(('one', v, l, c))
        elif name == 'RemoteId' and args[0] in structs:
            fs, _ = structs[args[0]]
            names = [camel(f) for f, _, _ in fs]
            def cc(t, d): return 'cU64Str' if d else codec(t)
            ser.append(f'    | .{l} {" ".join(names)} => .variant "{v}" (.map [' + ', '.join(
                f'("{f}", {cc(t, d)}.ser {camel(f)})' for f, t, d in fs) + '])')
            de.append(('struct', v, l, [(f, cc(t, d)) for f, t, d in fs]))
        elif len(args) == 1:
            c = codec(args[0])
            ser.append(f'    | .{l} x => .variant "{v}" ({c}.ser x)')
            de.append(('one', v, l, c))
        else:
            names = [f'x{i}' for i in range(len(args))]
            ser.append(f'    | .{l} {" ".join(names)} => .variant "{v}" (.seq [' + ', '.join(
                f'{codec(t)}.ser {n}' for t, n in zip(args, names)) + '])')
            de.append(('tuple', v, l, [codec(t) for t in args]))
    out.append(f'/-- `{name}`, `{cite}`. -/')
    out.append(f'def c{name} : Codec {name} where')
    out.append('  ser')
    out.extend(ser)
    out.append('  de')
    units = [d for d in de if d[0] == 'unit']
    if units:
        out.append('    | .unitVariant n =>')
        for i, (_, v, l, _) in enumerate(units):
            out.append(f'      {"if" if i == 0 else "else if"} n = "{v}" then some .{l}')
        out.append('      else none')
    out.append('    | .variant n j =>')
    first = True
    for kind, v, l, c in de:
        if kind == 'unit': continue
        kw = 'if' if first else 'else if'
        first = False
        if kind == 'one':
            out.append(f'      {kw} n = "{v}" then ({c}.de j).map .{l}')
        elif kind == 'struct':
            out.append(f'      {kw} n = "{v}" then do')
            for f, cc_ in c:
                out.append(f'        let {camel(f)} ← field "{f}" {cc_} j')
            out.append(f'        some (.{l} ' + ' '.join(camel(f) for f, _ in c) + ')')
        else:
            out.append(f'      {kw} n = "{v}" then do')
            for i, cc_ in enumerate(c):
                out.append(f'        let x{i} ← element {i} {len(c)} {cc_} j')
            out.append(f'        some (.{l} ' + ' '.join(f'x{i}' for i in range(len(c))) + ')')
    out.append('      else none')
    out.append('    | _ => none')
    out.append('')

for o in order:
    if o[0] == '@': emit_enum(o[1:])
    else: emit_struct(o)

HEAD = open('/verif/tools/serde_head.txt').read()
TAIL = open('/verif/tools/serde_tail.txt').read()
open('/verif/lean/Verif/Model/Serde.lean', 'w').write(HEAD + '\n'.join(out) + '\n' + TAIL)
