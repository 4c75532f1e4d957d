#!/usr/bin/env python3
"""Generate Verif/Model/Consts.lean and Verif/Model/AttrMap.lean from /repo.

Numeric PKCS#11 constants come from src/pkcs11/headers/3.2/pkcs11.h (what
bindgen reads in build.rs) and src/pkcs11/vendor.rs.  Only constants that the
Rust sources mention are emitted.  The attribute map comes from
src/attribute.rs:116-290 (with the `nssdb` entries included).
"""
import re, glob
R = '/repo/src/'
hdr = open(R + 'pkcs11/headers/3.2/pkcs11.h').read()
vals = {}
lines = {}
for i, l in enumerate(hdr.split('\n'), 1):
    m = re.match(r'#define\s+(CK\w+)\s+(.+?)\s*(/\*.*)?$', l)
    if not m:
        continue
    n, v = m.group(1), m.group(2).strip()
    vals[n] = v; lines[n] = ('src/pkcs11/headers/3.2/pkcs11.h', i)
ven = open(R + 'pkcs11/vendor.rs').read()
for m in re.finditer(r'const (\w+):\s*\w+\s*=\s*([^;]+);', ven):
    n, v = m.group(1), m.group(2)
    vals[n] = v; lines[n] = ('src/pkcs11/vendor.rs', ven[:m.start()].count('\n') + 1)
vals['CK_UNAVAILABLE_INFORMATION'] = '0xFFFFFFFFFFFFFFFF'
lines['CK_UNAVAILABLE_INFORMATION'] = ('src/pkcs11/mod.rs', 23)

def ev(v, depth=0):
    v = v.strip()
    v = re.sub(r'(?<=[0-9a-fA-F])(UL|ul|U|L)\b', '', v)
    v = v.replace('(CK_ULONG)', '').replace('CK_ULONG::MAX', '0xFFFFFFFFFFFFFFFF')
    v = v.replace(' as CK_ULONG', '').replace('~0', '0xFFFFFFFFFFFFFFFF')
    def rep(m):
        return str(ev(vals[m.group(0)], depth + 1)) if m.group(0) in vals else m.group(0)
    v = re.sub(r'\b[A-Z][A-Z0-9_]+[A-Za-z0-9_]*\b', rep, v)
    return eval(v, {}, {})

src = ''
for f in glob.glob(R + '**/*.rs', recursive=True):
    if '/tests/' in f: continue
    src += open(f).read()
used = set(re.findall(r'\b(?:CK[A-Z]?|KR[AOYMR])_[A-Z0-9a-z_]+\b', src))
want = []
for n in used:
    if n not in vals: continue
    if not re.match(r'(CKA|CKO|CKK|CKM|CKF|CKS|CKU|CKN|CKH|CKC|CKT|CKP|CKD|CKZ|CKG|CK|KRA|KRO|KRM|KRY|NSS)_', n): continue
    try:
        x = ev(vals[n])
        if isinstance(x, int):
            want.append((n, x))
    except Exception as e:
        pass
want.sort(key=lambda t: (t[0].split('_')[0], t[1], t[0]))
out = ['/-! PKCS#11 numeric constants.  GENERATED by tools/gen_consts.py from',
       '`src/pkcs11/headers/3.2/pkcs11.h` and `src/pkcs11/vendor.rs`; do not edit. -/', '',
       'namespace Kry', '']
for n, x in want:
    f, l = lines[n]
    out.append(f'/-- {f}:{l} -/\nabbrev {n} : Nat := {hex(x)}')
out += ['', 'end Kry', '']
open('/verif/lean/Verif/Model/Consts.lean', 'w').write('\n'.join(out))

names = dict(want)
t = open(R + 'attribute.rs').read().split('\n')[115:290]
ents = []
for i, l in enumerate(t, 116):
    m = re.search(r'attrmap_element!\((\w+); as (\w+)\)', l)
    if m:
        ents.append((m.group(1), m.group(2)))
        assert m.group(1) in names, m.group(1)
tyname = {'BoolType': 'bool', 'NumType': 'num', 'StringType': 'string', 'BytesType': 'bytes',
          'UlongArrayType': 'ulongArray', 'DateType': 'date', 'DenyType': 'deny', 'IgnoreType': 'ignore'}
out = ['import Verif.Model.Base', '',
       '/-! The attribute map.  GENERATED by tools/gen_consts.py from `src/attribute.rs:116-290`',
       '(static `ATTRMAP`, with the `nssdb` feature entries); do not edit. -/', '',
       'namespace Kry', '',
       '/-- `static ATTRMAP` of `src/attribute.rs:116-290`: attribute id and value kind, in file order.',
       'The `name` column (used only by JSON tooling) is dropped. -/',
       'def attrMap : List (Nat × AttrType) := [']
out.append(',\n'.join(f'  ({a}, .{tyname[b]})' for a, b in ents))
out += [']', '', 'end Kry', '']
open('/verif/lean/Verif/Model/AttrMap.lean', 'w').write('\n'.join(out))
print(len(want), len(ents))

# name tables of src/pkcs11/mod.rs
pk = open(R + 'pkcs11/mod.rs').read()
out = ['import Verif.Model.Base', '',
       '/-! The name tables of `src/pkcs11/mod.rs`.  GENERATED by tools/gen_consts.py; do not edit. -/', '',
       'namespace Kry', '']
for rust, lean in [('MECHMAP', 'mechNames'), ('ATTRMAP', 'attrNames'), ('OBJMAP', 'objNames')]:
    m = re.search(r'static ' + rust + r'[^=]*= &?\[(.*?)\n\];', pk, re.S)
    a = pk[:m.start()].count('\n') + 1
    b = pk[:m.end()].count('\n') + 1
    l = re.findall(r'const_to_elem!\((\w+)\)', m.group(1))
    for n in l: assert n in names, n
    out.append(f'/-- `static {rust}` (`src/pkcs11/mod.rs:{a}-{b}`), in file order. -/')
    out.append(f'def {lean} : List (Nat × String) := [')
    out.append(',\n'.join(f'  ({n}, "{n}")' for n in l) + ']')
    out.append('')
out += ['end Kry', '']
open('/verif/lean/Verif/Model/Names.lean', 'w').write('\n'.join(out))

# numeric codes of the mechanism and attribute names, for a fast kernel check (proof data)
out = ['import Verif.Model.Names', '',
       '/-! Numeric codes of the names of `Model/Names`.  GENERATED by tools/gen_consts.py. -/', '',
       'namespace Kry', '',
       '/-- The characters of a name as one number (base 256). -/',
       'def nameCode (s : String) : Nat := s.toList.foldl (fun n c => n * 256 + c.toNat) 0', '']
for rust, lean in [('MECHMAP', 'mechNames'), ('ATTRMAP', 'attrNames'), ('OBJMAP', 'objNames')]:
    m = re.search(r'static ' + rust + r'[^=]*= &?\[(.*?)\n\];', pk, re.S)
    l = re.findall(r'const_to_elem!\((\w+)\)', m.group(1))
    out.append(f'/-- Codes and values of `{lean}`. -/')
    out.append(f'def {lean}Codes : List (Nat × Nat) := [')
    out.append(',\n'.join(f'  ({int.from_bytes(n.encode(), "big")}, {names[n]})' for n in l) + ']')
    out.append('')
out += ['end Kry', '']
open('/verif/lean/Verif/Proofs/NameCodes.lean', 'w').write('\n'.join(out))
