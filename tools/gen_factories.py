#!/usr/bin/env python3
"""Generate Verif/Model/FactoryTables.lean from the `attr_element!` tables in /repo/src."""
import re
R = '/repo/src/'
FL = {'Ignored':'oaIgnored','Sensitive':'oaSensitive','Defval':'oaDefval','RequiredOnCreate':'oaRequiredOnCreate',
 'RequiredOnGenerate':'oaRequiredOnGenerate','AlwaysRequired':'oaAlwaysRequired','SettableOnlyOnCreate':'oaSettableOnlyOnCreate',
 'NeverSettable':'oaNeverSettable','Unchangeable':'oaUnchangeable','ChangeToFalse':'oaChangeToFalse','ChangeToTrue':'oaChangeToTrue',
 'ChangeOnCopy':'oaChangeOnCopy','Ephemeral':'oaEphemeral'}
def conv(t, frm, val):
    val = val.strip()
    if frm == 'from_bool':
        return f'.ofBool {t} ' + (val if val in ('true','false','private') else '???')
    if frm == 'from_ulong':
        return f'.ofUlong {t} {val}'
    if frm == 'from_ignore':
        return f'.ofIgnore {t}'
    if frm in ('from_bytes','from_string','from_date_bytes'):
        v = '[]' if 'new()' in val else '(List.replicate 8 0)' if re.match(r'vec!\[0(u8)?; 8\]', val) else '???'
        return {'from_bytes':'.ofBytes','from_string':'.ofString','from_date_bytes':'.ofDate'}[frm] + f' {t} {v}'
    raise Exception(frm)
def entries(f, lo, hi, subst=None):
    txt = open(R+f).read()
    out = []
    for m in re.finditer(r'attr_element!\(\s*(\w+);\s*(OAFlags[^;]*);\s*Attribute::(\w+);\s*val\s+(.*?)\s*\)\s*(\)?)\s*;', txt, re.S):
        ln = txt[:m.start()].count('\n')+1
        if not (lo <= ln <= hi): continue
        fl = re.findall(r'OAFlags::(\w+)', m.group(2))
        flags = ' ||| '.join(FL[x] for x in fl if x != 'empty') or '0'
        val = m.group(4)
        if val.count('(') > val.count(')'): val += ')'*(val.count('(')-val.count(')'))
        replace = m.group(5) == '' 
        names = [m.group(1)]
        if m.group(1) == 'attr_type':
            names = subst
        for n in names:
            out.append((n, flags, conv(n, m.group(3), val), ln, replace))
    return out
def emit(es):
    return ',\n'.join(f'  ⟨{c}, {fl}⟩ /- :{ln} -/' for (n, fl, c, ln, r) in es)
out = ['import Verif.Model.Factory0', '',
 '/-! Attribute tables of the object factories.  GENERATED by tools/gen_factories.py from the',
 '`attr_element!` lists of the Rust sources; do not edit.  The number in the comment after an entry is',
 'the source line of that entry. -/', '', 'namespace Kry', '']
def deflist(name, doc, base, f, lo, hi, arg='', subst=None, cls=None, expect=None):
    es = entries(f, lo, hi, subst)
    if expect: assert len(es) == expect, (name, len(es))
    pushes = [e for e in es if not e[4]]
    repl = [e for e in es if e[4]]
    out.append(f'/-- {doc} (`src/{f}:{lo}-{hi}`). -/')
    body = f'def {name} {arg}: List FAttr :=\n  '
    body += (base + ' ++ ' if base else '') + '[\n' + emit(pushes) + ']'
    for (n, fl, c, ln, r) in repl:
        body = body.replace(':=\n  ', ':=\n  replaceOrPush (', 1) + f')\n  ⟨{c}, {fl}⟩ /- :{ln} -/'
    out.append(body)
    out.append('')
deflist('commonObjectAttrs','Common object attributes, `add_common_object_attrs`','','object/factory.rs',265,273)
deflist('commonStorageAttrs','Storage object attributes, `add_common_storage_attrs`','commonObjectAttrs','object/factory.rs',276,297,'(priv : Bool) ')
deflist('dataAttrs','`DataFactory::new`','commonStorageAttrs false','object/factory.rs',580,602)
deflist('profileAttrs','`ProfileFactory::new`','commonObjectAttrs','object/factory.rs',641,657)
deflist('mechanismAttrs','`MechanismFactory::new`','commonObjectAttrs','object/factory.rs',708,724)
deflist('commonKeyAttrs','Common key attributes, `add_common_key_attrs`','commonStorageAttrs priv','object/key.rs',24,54,'(priv : Bool) ')
deflist('commonPublicKeyAttrs','`add_common_public_key_attrs`','commonKeyAttrs false','object/key.rs',224,251)
deflist('commonPrivateKeyAttrs','`add_common_private_key_attrs`','commonKeyAttrs true','object/key.rs',271,316)
deflist('commonSecretKeyAttrs','`add_common_secret_key_attrs`','commonKeyAttrs true','object/key.rs',327,372)
deflist('genericSecretAttrs','`GenericSecretKeyFactory::new`','commonSecretKeyAttrs','object/key.rs',519,548)
deflist('commonCertAttrs','`add_common_certificate_attrs`','commonStorageAttrs false','object/certs.rs',23,48)
deflist('x509Attrs','`X509Factory::new`','commonCertAttrs','object/certs.rs',95,140)
deflist('trustAttrs','`TrustObject::new`','commonStorageAttrs false','object/certs.rs',219,277,subst='CKA_TRUST_SERVER_AUTH CKA_TRUST_CLIENT_AUTH CKA_TRUST_CODE_SIGNING CKA_TRUST_EMAIL_PROTECTION CKA_TRUST_IPSEC_IKE CKA_TRUST_TIME_STAMPING CKA_TRUST_OCSP_SIGNING'.split())
deflist('nssTrustAttrs','`NSSTrustObject::new`','commonStorageAttrs false','object/certs.rs',351,421,subst='CKA_NSS_TRUST_SERVER_AUTH CKA_NSS_TRUST_CLIENT_AUTH CKA_NSS_TRUST_CODE_SIGNING CKA_NSS_TRUST_EMAIL_PROTECTION CKA_NSS_TRUST_STEP_UP_APPROVED'.split())
deflist('commonOtpAttrs','`add_common_otp_key_attrs`','commonSecretKeyAttrs','object/otp.rs',16,46)
deflist('hotpAttrs','`HOTPKeyFactory::new`','commonOtpAttrs','hotp.rs',60,136)
deflist('aesAttrs','`AesKeyFactory::new`','commonSecretKeyAttrs','aes.rs',101,122)
deflist('rsaPubAttrs','`RSAPubFactory::new`','commonPublicKeyAttrs','rsa.rs',206,230)
deflist('rsaPrivAttrs','`RSAPrivFactory::new`','commonPrivateKeyAttrs','rsa.rs',360,400)
deflist('ecPubAttrs','`ECDSAPubFactory::new`','commonPublicKeyAttrs','ec/ecdsa.rs',119,140)
deflist('ecPrivAttrs','`ECDSAPrivFactory::new`','commonPrivateKeyAttrs','ec/ecdsa.rs',234,255)
deflist('edPubAttrs','`EDDSAPubFactory::new`','commonPublicKeyAttrs','ec/eddsa.rs',100,121)
deflist('edPrivAttrs','`EDDSAPrivFactory::new`','commonPrivateKeyAttrs','ec/eddsa.rs',211,241)
deflist('montPubAttrs','`ECMontgomeryPubFactory::new`','commonPublicKeyAttrs','ec/montgomery.rs',94,115)
deflist('montPrivAttrs','`ECMontgomeryPrivFactory::new`','commonPrivateKeyAttrs','ec/montgomery.rs',205,226)
deflist('dhPubAttrs','`FFDHPubFactory::new`','commonPublicKeyAttrs','ffdh.rs',114,137)
deflist('dhPrivAttrs','`FFDHPrivFactory::new`','commonPrivateKeyAttrs','ffdh.rs',178,205)
deflist('mldsaPubAttrs','`MlDsaPubFactory::new`','commonPublicKeyAttrs','mldsa.rs',157,178)
deflist('mldsaPrivAttrs','`MlDsaPrivFactory::new`','commonPrivateKeyAttrs','mldsa.rs',292,316)
deflist('mlkemPubAttrs','`MlKemPubFactory::new`','commonPublicKeyAttrs','mlkem.rs',150,171)
deflist('mlkemPrivAttrs','`MlKemPrivFactory::new`','commonPrivateKeyAttrs','mlkem.rs',285,318)
deflist('slhdsaPubAttrs','`SlhDsaPubFactory::new`','commonPublicKeyAttrs','slhdsa.rs',179,200)
deflist('slhdsaPrivAttrs','`SlhDsaPrivFactory::new`','commonPrivateKeyAttrs','slhdsa.rs',300,320)
deflist('validationAttrs','`ValidationFactory::new` (fips)','commonObjectAttrs','fips/indicators.rs',42,102)
out += ['end Kry', '']
s = '\n'.join(out).replace('private', 'priv') if False else '\n'.join(out)
s = re.sub(r'\.ofBool (\w+) private', r'.ofBool \1 priv', s)
open('/verif/lean/Verif/Model/FactoryTables.lean','w').write(s)
