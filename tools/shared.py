#!/usr/bin/env python3
"""Writes lean/Verif/Shared/Ids.lean and Table.lean from the text of /repo: for each function of src/*.c the variables of the
library it mentions, the functions of the library it mentions and whether it calls a function of the application. Functions that
write one of the variables or use one of the locks are given by hand in lean/Verif/Shared/Library.lean; the tool fails if one of
them is missing there."""
import re,glob,sys
out=sys.argv[1]
def nocom(s):
    def f(m):
        x=m.group()
        return re.sub(r'[^\n]',' ',x) if x[0]=='/' else '""' if x[0]=='"' else '0'
    return re.sub(r'/\*.*?\*/|//[^\n]*|"(?:\\.|[^"\\\n])*"|\'(?:\\.[^\']*|[^\'\\\n])\'',f,s,flags=re.S)
hdr=''.join(open(f).read() for f in sorted(glob.glob('/repo/include/*.h'))+['/repo/include/nostr_features.h.in'])
public=set(re.findall(r'\b(nostr_\w+|secure_wipe)\s*\(',nocom(hdr)))
VARS={'g_config':'config','g_config_initialized':'configInit','g_config_callback':'callback','g_config_callback_user_data':'callbackData',
 'feature_list':'featureText','ctx_initialized':'contextInit','nc_ctx':'ncContext','secp256k1_ctx':'secpContext',
 'rng_entropy':'random','rng_ctr_drbg':'random','rng_initialized':'randomInit','sessions':'table','max_sessions':'tableSize',
 'sessions_initialized':'tableInit','rate_limit_window_start':'rateWindow','rate_limit_count':'rateCount'}
LOCKS=['config_lock','ctx_init_lock','rng_lock','sessions_lock','lock_config','unlock_config','lock_rng','unlock_rng','lock_ctx_init',
 'unlock_ctx_init']
HAND={'nostr_config_get_current':'getCurrent','nostr_init_with_config':'initWithConfig','nostr_config_set_callback':'setCallback',
 'nostr_config_update':'update','nostr_feature_list_enabled':'featureList','nostr_random_bytes':'randomBytes','nostr_init':'init',
 'nostr_cleanup':'cleanup','nostr_key_generate':'keyGenerate','find_session':'findSession','cleanup_expired_sessions':'cleanupExpired',
 'nostr_nip47_session_init':'sessionInit','nostr_nip47_session_create':'sessionCreate',
 'nostr_nip47_session_add_permission':'sessionAdd','nostr_nip47_session_check_permission':'sessionCheck',
 'nostr_nip47_session_get_connection':'sessionGet','nostr_nip47_session_extend':'sessionExtend',
 'nostr_nip47_session_destroy':'sessionDestroy'}
IDS={'nostr_nip47_parse_connection_uri':'parseUri','nostr_nip47_free_connection':'freeConnection','nostr_config_validate':'validate',
 'nostr_config_get_defaults':'getDefaults','nostr_config_load_env':'loadEnv','nostr_constant_time_memcmp':'compare','secure_wipe':'wipe','parse_int_env':'envInt','parse_uint32_env':'envUint','free_connection':'release'}
IDS.update({k:v for k,v in HAND.items()})
fns={}
for f in sorted(glob.glob('/repo/src/*.c')):
    t=nocom(open(f).read())
    for m in re.finditer(r'^(?:[A-Za-z_][\w\s\*]*?)\b(\w+)\s*\(([^;{}]*?)\)(?:\)\[32\])?\s*\{',t.replace('(*nostr','  nostr'),re.M):
        n=m.group(1)
        if n in ('if','while','for','switch'): continue
        d,i=1,m.end()
        while d and i<len(t):
            d+={'{':1,'}':-1}.get(t[i],0); i+=1
        body=t[m.end():i]
        if body.count('{')+1!=body.count('}'):      # alternatives of the preprocessor: up to the next brace in the first column
            i=t.index('\n}',m.end()); body=t[m.end():i]
        fns.setdefault(n,[]).append((f.split('/')[-1],t[:m.start()].count('\n')+1,re.sub(r'^\s*#.*$','',body,flags=re.M),m.group(2)))
wrap=set(LOCKS)|{n for n in fns if n.endswith('lock_callback')}
names=sorted(n for n in fns if n not in wrap)
num={n:i for i,n in enumerate(names)}
values=set()
alltext=''.join(nocom(open(f).read()) for f in sorted(glob.glob('/repo/src/*.c')))
for n in names:                                      # functions mentioned other than in a call or definition
    if re.search(r'[,={(]\s*&?'+n+r'\s*[,;})]',alltext): values.add(n)
rows=[]
for n in names:
    entry=n in public or n in values
    if n in HAND:
        body='body.'+HAND[n]
    else:
        vs,cs,user=[],[],False
        for (_,_,b,_) in fns[n]:
            b=re.sub(r'(\.|->)\s*\w+',' ',b)
            ws=set(re.findall(r'\b\w+\b',b))
            for l in LOCKS: assert l not in ws,(n,l)
            for c,v in VARS.items():
                if c not in ws: continue
                if re.search(r'\b(?:[\w]+\s+\*?)'+c+r'\s*[=;,\[]',b) and not re.search(r'extern[^;]*\b'+c,b): continue   # a local of that name
                assert not re.search(r'\b'+c+r'\s*(=[^=]|\+\+|--|[-+*/|&]=)',b),(n,c)
                assert not re.search(r'&\s*'+c+r'\b',b),(n,c)
                if v not in vs: vs.append(v)
            cs+=[c for c in sorted(ws) if c in num and c!=n and c not in cs and not re.search(r'\b(?:char|int|size_t|void)\s*\*?\s*'+c+r'\b',b)]
        for (_,_,b,a) in fns[n]:
            if re.search(r'(callback|_cb|\bcb)\s*\(',re.sub(r'\b\w*set_\w*callback\s*\(','',b)): user=True
        steps=['.read .'+v for v in vs]+['.call %d'%num[c] for c in cs]+(['.user'] if user else [])
        body='.skip' if not steps else 'any [%s]'%', '.join(steps)
    rows.append('  ⟨"%s", %s, %s⟩'%(n,'true' if entry else 'false',body))
with open(out+'/Ids.lean','w') as o:
    o.write('/-! Written by tools/shared.py: the numbers of the functions named in Library.lean. -/\n\nnamespace Nostr.Shared.Id\n\n')
    for n in names:
        if n in IDS:
            o.write('/-- %s (src/%s:%d) -/\nabbrev %s : Nat := %d\n\n'%(n,fns[n][0][0],fns[n][0][1],IDS[n],num[n]))
    o.write('end Nostr.Shared.Id\n')
with open(out+'/Table.lean','w') as o:
    o.write('import Verif.Shared.Library\n\n/-! Written by tools/shared.py from the text of src/*.c: every function of the library. -/\n\nnamespace Nostr.Shared\n\n')
    o.write('/-- All functions of src/*.c, in the order of their names. Those given by `any` neither write one of the library\'s variables nor use\none of its locks: their parts are taken in any order and number. `cb` is what is called by nostr_config_update (src/config.c:261). -/\n')
    o.write('def library (cb : Prog) : List Fn := [\n'+',\n'.join(rows).replace('body.update','(body.update cb)')+'\n]\n\nend Nostr.Shared\n')
print(len(names),sum('true' in r for r in rows))
