import re
s=open('/repo/src/storage/nssdb/attrs.rs').read().split('\n')
kinds={}
cur=None
txt='\n'.join(s[:173])
for m in re.finditer(r'macro_rules! (\w+) \{.*?NssAttributeInfo \{(.*?)\}',txt,re.S):
    kinds[m.group(1)]={k:v=='true' for k,v in re.findall(r'(\w+): (true|false)',m.group(2))}
print(kinds)
body='\n'.join(s[173:369])
body=re.sub(r'/\*.*?\*/','',body,flags=re.S); body=re.sub(r'//.*','',body)
ents=re.findall(r'(\w+)!\(\s*(\w+)',body); other=[l for l in body.split('\n') if l.strip() and '!(' not in l]
print(len(ents),other[:20])
from collections import Counter
print(Counter(e[0] for e in ents))
consts=open('/verif/lean/Verif/Model/Consts.lean').read()
have={m.group(1) for m in re.finditer(r'abbrev (CKA_\w+)',consts)}
print([e for e in ents if e[1] not in have])
off=0x80000000+0x4E534350
extra={'CKA_NSS_TRUST':0x80000001,'CKA_NSS_DB':0xD5A0DB00}
for m in re.finditer(r'const (\w+): CK_ATTRIBUTE_TYPE =\s*NSS_VENDOR_OFFSET \+ (\d+);',txt): extra[m.group(1)]=off+int(m.group(2))
for m in re.finditer(r'const (DEPRECATED_\w+): CK_ULONG = (\w+);',txt): extra[m.group(1)]=int(m.group(2),0)
out=['import Verif.Model.Base','','/-! The attribute table of the NSS database backend.  GENERATED by tools/gen_nss.py from `src/storage/nssdb/attrs.rs:174-369`; do not edit. -/','','namespace Kry','',
'/-- `NssAttributeInfo` (`src/storage/nssdb/attrs.rs:67-74`). -/','structure NssAttr where','  typ : Nat','  authenticated : Bool := false','  sensitive : Bool := false','  masked : Bool := false','  skippable : Bool := false','  deprecated : Bool := false','deriving DecidableEq, Repr','',
'/-- `ALL_ATTRIBUTES` (`src/storage/nssdb/attrs.rs:174-369`), in file order; the NSS vendor constants are at `src/storage/nssdb/attrs.rs:12-64`. -/','def nssAttrs : List NssAttr := [']
rows=[]
for k,n in ents:
    v=n if n in have else hex(extra[n])
    fl=''.join(', %s := true'%f for f,b in kinds[k].items() if b)
    rows.append('  { typ := %s%s }'%(v,fl)+('%s'+('' if n in have else ' -- '+n)))
for i,r in enumerate(rows): out.append(r%(',' if i<len(rows)-1 else ']'))
out+=['','end Kry','']
open('/verif/lean/Verif/Model/NssAttrs.lean','w').write('\n'.join(out))
