#!/usr/bin/env python3
"""Writes lean/Verif/Build/Tables.lean from the text of /repo. Run: python3 tools/names.py"""
# Reads /repo/src/*.c and the headers as text and writes the tables of Verif/Build/Tables.lean.
import re,glob,os,sys
os.chdir('/repo')
def strip(s):
    out=[];i=0;n=len(s)
    while i<n:
        if s.startswith('/*',i):
            j=s.find('*/',i+2); j=n if j<0 else j+2
            out.append(''.join(c if c=='\n' else ' ' for c in s[i:j])); i=j
        elif s.startswith('//',i):
            j=s.find('\n',i); j=n if j<0 else j
            i=j
        elif s[i]=='"':
            j=i+1
            while j<n and s[j]!='"':
                j+=2 if s[j]=='\\' else 1
            out.append('""'); i=j+1
        elif s[i]=="'" :
            j=i+1
            while j<n and s[j]!="'":
                j+=2 if s[j]=='\\' else 1
            out.append("' '"); i=j+1
        else: out.append(s[i]); i+=1
    return ''.join(out)
MAC={'NOSTR_FEATURE_ENCODING':'encoding','NOSTR_FEATURE_RELAY':'relay','NOSTR_FEATURE_RELAY_PROTOCOL':'relayProtocol',
'NOSTR_FEATURE_HD_KEYS':'hdKeys','NOSTR_FEATURE_JSON_ENHANCED':'jsonEnhanced','NOSTR_FEATURE_THREADING':'threading',
'NOSTR_FEATURE_CRYPTO_NOSCRYPT':'cryptoNoscrypt','NOSTR_FEATURE_CRYPTO_SECP256K1':'cryptoSecp','HAVE_NOSCRYPT':'haveNoscrypt',
'HAVE_SECP256K1':'haveSecp','HAVE_MBEDTLS':'haveMbedtls','HAVE_CJSON':'haveCjson','HAVE_LIBWEBSOCKETS':'haveLws',
'HAVE_UTF8PROC':'haveUtf8proc','_WIN32':'win32','ESP_PLATFORM':'esp'}
for n in '04 05 10 13 17 18 25 26 44 46 47 49 51 57 59 65'.split(): MAC['NOSTR_FEATURE_NIP'+n]='nip'+n
IGN={'__cplusplus','NOSTR_H','NOSTR_RELAY_PROTOCOL_H','NOSTR_FEATURES_H','BECH32_INTERNAL_H','_MSC_VER'}
def parse(c):
    c=c.strip()
    if not set(re.findall(r'[A-Za-z_]\w*',c))-{'defined'}<=set(MAC): return ('tt',)
    if re.fullmatch(r'\w+',c): c='defined(%s)'%c
    toks=re.findall(r'defined|\w+|&&|\|\||!|\(|\)',c)
    pos=[0]
    def peek(): return toks[pos[0]] if pos[0]<len(toks) else None
    def nxt(): pos[0]+=1; return toks[pos[0]-1]
    def orr():
        a=an()
        while peek()=='||': nxt(); a=('or',a,an())
        return a
    def an():
        a=at()
        while peek()=='&&': nxt(); a=('and',a,at())
        return a
    def at():
        t=nxt()
        if t=='!': return neg(at())
        if t=='(':
            a=orr(); assert nxt()==')'; return a
        if t=='defined':
            t=nxt()
            if t=='(': t=nxt(); assert nxt()==')'
        return ('m',t)
    r=orr(); assert pos[0]==len(toks),c
    return r
def neg(a):
    if a==('tt',) : return a
    return a[1] if a[0]=='not' else ('not',a)
def conj(l):
    l=[x for x in l if x!=('tt',)]
    if not l: return ('tt',)
    r=l[0]
    for x in l[1:]: r=('and',r,x)
    return r
def lean(g):
    if g[0]=='tt': return '.tt'
    if g[0]=='m': return '(d .%s)'%MAC[g[1]]
    if g[0]=='not': return '(.not %s)'%lean(g[1])
    return '(.%s %s %s)'%(g[0],lean(g[1]),lean(g[2]))
def scan(f):
    """defs: (name,line,guard,static,body) refs: (name,line,guard)"""
    s=strip(open(f).read()); lines=s.split('\n')
    stack=[]; depth=0; D=[];R=[]
    acc=None; cur=None; cont=False
    for ln,l in enumerate(lines,1):
        t=l.strip()
        if cont:
            cont=t.endswith('\\'); continue
        m=re.match(r'#\s*(ifdef|ifndef|if|elif|else|endif)\b(.*)',t)
        if m:
            k,a=m.group(1),m.group(2).strip()
            if k=='ifdef': stack.append([parse(a),[],depth,acc])
            elif k=='ifndef': stack.append([neg(parse(a)),[],depth,acc])
            elif k=='if': stack.append([parse(a),[],depth,acc])
            elif k=='elif':
                e=stack[-1]; e[1].append(e[0]); e[0]=parse(a); depth=e[2]; acc=e[3]
            elif k=='else':
                e=stack[-1]; e[1].append(e[0]); e[0]=('tt',); depth=e[2]; acc=e[3]
            else: stack.pop()
            continue
        if t.startswith('#'):
            cont=t.endswith('\\')
            continue
        gs=[]
        for g,p,_,_ in stack:
            gs+= [neg(x) for x in p]+[g]
        guard=conj(gs)
        for m in re.finditer(r'[A-Za-z_]\w*|[{};(]',l):
            tok=m.group(0)
            if tok=='{':
                if depth==0 and acc and acc.get('paren'):
                    if acc['name']=='uint8_t':
                        acc['name']=re.search(r'\(\*\s*(\w+)\s*\(',lines[acc['line']-1]).group(1)
                    D.append(dict(name=acc['name'],line=acc['line'],guard=acc['guard'],static=acc['static'],body=[l],file=f,l0=ln))
                    cur=D[-1]
                depth+=1
            elif tok=='}':
                depth-=1
                if depth==0: acc=None;cur=None
            elif tok==';':
                if depth==0: acc=None
            elif tok=='(':
                if depth==0 and acc: acc['paren']=True
            else:
                if depth==0:
                    if acc is None: acc=dict(name=None,line=ln,guard=guard,static=False,paren=False)
                    if tok=='static': acc['static']=True
                    if not acc['paren']: acc['name']=tok; acc['line']=ln; acc['guard']=guard
                else:
                    call=bool(re.match(r'\s*\(',l[m.end():]))
                    R.append((tok,ln,guard,call,cur['name'] if cur else None))
        if cur is not None and cur['l0']!=ln: cur['body'].append(l)
    return D,R
defs=[];refs=[]
for f in sorted(glob.glob('src/*.c')):
    D,R=scan(f)
    defs+=D
    refs+=[(n,f,ln,g,c,w) for n,ln,g,c,w in R]
names={}
for d in defs: names.setdefault(d['name'],[]).append(d)
VARS=[('nc_ctx','src/key.c',32,('m','HAVE_NOSCRYPT')),('secp256k1_ctx','src/key.c',35,('m','HAVE_SECP256K1'))]

import itertools,collections
LIBS=[('cjson','cJSON_'),('noscrypt','NC[A-Z]\\w*$|NCGet'),('secp256k1','secp256k1_'),('mbedtls','mbedtls_'),('libwebsockets','lws_'),('utf8proc','utf8proc_')]
LIBG={'cjson':'HAVE_CJSON','noscrypt':'HAVE_NOSCRYPT','secp256k1':'HAVE_SECP256K1','mbedtls':'HAVE_MBEDTLS','libwebsockets':'HAVE_LIBWEBSOCKETS','utf8proc':'HAVE_UTF8PROC'}
def FILE(f): return os.path.basename(f)[:-2]
R=collections.OrderedDict()
for n,f,ln,g,call,w in refs:
    if n in ('nc_ctx','secp256k1_ctx','BECH32_CHARSET','BECH32_GENERATOR') or n in names:
        if n in names:
            ds=names[n]
            # local variables with the name of a static function of another file are no references
            if all(d['static'] and d['file']!=f for d in ds): continue
            if not call and not any(d['file']==f or not d['static'] for d in ds): continue
        R.setdefault((n,f,g),ln)
    elif call:
        for l,p in LIBS:
            if re.match(p,n): R.setdefault(('lib_'+l,f,g),ln)
# non-call references to functions
D=[]
for d in defs:
    body=' '.join(d['body']); 
    i=body.index('{'); body=body[i+1:]
    # cut at matching brace
    dep=1;j=0
    while dep and j<len(body):
        dep+= {'{':1,'}':-1}.get(body[j],0); j+=1
    b=re.sub(r'\(void\)\s*\w+\s*;','',body[:j-1] if dep==0 else body).strip()
    m=re.fullmatch(r'return\s+([\w]+|\(\w+\)\s*\w+)\s*;',b)
    if b=='': does='nothing'
    elif m and m.group(1)=='NOSTR_ERR_NOT_SUPPORTED': does='notSupported'
    elif m and m.group(1) in('0','false'): does='zero'
    elif m and m.group(1)=='NULL': does='null'
    else: does='works'
    d['does']=does; D.append(d)
D2=[(v[0],v[1],v[2],v[3],False,'works') for v in VARS]+[('BECH32_CHARSET','src/bech32.c',10,('m','NOSTR_FEATURE_ENCODING'),False,'works'),('BECH32_GENERATOR','src/bech32.c',12,('m','NOSTR_FEATURE_ENCODING'),False,'works')]
D2+=[(d['name'],d['file'],d['line'],d['guard'],d['static'],d['does']) for d in D]

DB={}
for n,f,l,g,st,do in D2: DB.setdefault(n,[]).append((f,l,g,st,do))
for l,h in LIBG.items(): DB['lib_'+l]=[('lib',0,('m',h),False,'works')]

DECL={}
for h in ['include/nostr.h','include/nostr_relay_protocol.h','include/nostr_features.h.in']:
    s=strip(open(h).read()); 
    stack=[];out=[];G=[]
    cont=False
    for l in s.split('\n'):
        t=l.strip()
        if cont: cont=t.endswith('\\'); out.append('');G.append(None);continue
        m=re.match(r'#\s*(ifdef|ifndef|if|elif|else|endif)\b(.*)',t)
        if m:
            k,a=m.group(1),m.group(2).strip()
            if k=='ifdef': stack.append([parse(a),[]])
            elif k=='ifndef': stack.append([neg(parse(a)),[]])
            elif k=='if': stack.append([parse(a),[]])
            elif k=='elif': e=stack[-1]; e[1].append(e[0]); e[0]=parse(a)
            elif k=='else': e=stack[-1]; e[1].append(e[0]); e[0]=('tt',)
            else: stack.pop()
            out.append('')
        elif t.startswith('#'):
            cont=t.endswith('\\'); out.append('')
        else: out.append(l)
        G.append(conj(sum([[neg(x) for x in p]+[g] for g,p in stack],[])))
    text='\n'.join(out)
    for n in names:
        for m in re.finditer(r'\b'+n+r'\s*\(',text):
            ln=text[:m.start()].count('\n')
            DECL.setdefault(n,[]).append((h,ln+1,G[ln]))

for i,x in enumerate(D2):
    pass
BODY={}
for dd in D:
    pass
def body(n,f,l,do):
    if do!='works': return do
    dd=[q for q in D if q['name']==n and q['file']==f and q['line']==l]
    if not dd: return 'works'
    b=' '.join(x.strip() for x in dd[0]['body'])
    b=b[b.index('{')+1:]
    b=re.sub(r'\(void\)\s*\w+\s*;|NIP26_UNUSED\(\w+\);','',b).strip().rstrip('}').strip()
    if b=='NIP26_STUB_RETURN(NOSTR_ERR_NOT_SUPPORTED);': return 'notSupported'
    if b=='': return 'nothing'
    if b=='return NOSTR_RELAY_ERR_INVALID_JSON;': return 'invalidJson'
    if b=='return -1;': return 'minusOne'
    return 'works'
order=sorted(set(n for n in DB),key=lambda n:(n.startswith('lib_'),DB[n][0][0],DB[n][0][1],n))
lines=[];chunks=[]
def LF(f): return 'libraries' if f=='lib' else FILE(f)
cnt=0
for n in order:
    rs=[(f,ln,g) for (m,f,g),ln in R.items() if m==n]
    if not rs and n not in DECL and not n.startswith('lib_'): continue
    # thread bodies given to pthread_create appear as plain references; keep them
    ds=DB[n]
    S='  { name := "%s", declared := %s,\n    defs := [%s],\n    refs := [%s] }'%(
      n.replace('lib_','library ') , 'some "%s:%d"'%(DECL[n][0][0],DECL[n][0][1]) if n in DECL else 'none',
      ',\n      '.join('⟨.%s, %d, %s, %s, .%s⟩'%(LF(f),l,lean(g),'true' if st else 'false','works' if f=='lib' else body(n,f,l,do)) for f,l,g,st,do in ds),
      ',\n      '.join('⟨.%s, %d, %s⟩'%(LF(f),l,lean(g)) for f,l,g in rs))
    lines.append((LF(ds[0][0]),S)); cnt+=1
out="""import Verif.Build.Model

/-! # The names of the library

Every function of `/repo/src/*.c` that a public header declares or that the code uses, and the four shared
variables (`nc_ctx`, `secp256k1_ctx`, `BECH32_CHARSET`, `BECH32_GENERATOR`), with all definitions and uses, grouped
by the file of the first definition. The last group has one name for each library that can be missing; its "definition"
is the library itself, linked if the variable is on (CMakeLists.txt:805-920).

The tables were written by a script from the text of the sources (`tools/names.py`). A function is declared in
include/nostr.h, include/nostr_relay_protocol.h or include/nostr_features.h.in; all these declarations are
unconditional. Conditions on other macros than those of the model (compilers, libc versions) are taken as true, for
both branches. Macros, types and fields are not in the tables. -/

namespace Nostr.Build

"""
import itertools
groups=[]
for k,it in itertools.groupby(lines,key=lambda p:p[0]):
    it=list(it)
    out+='/-- Names first defined in %s. -/\ndef names_%s : List Name := [\n'%('src/%s.c'%k if k!='libraries' else 'the libraries: CMakeLists.txt:805-920',k)+',\n'.join(s for _,s in it)+' ]\n\n'
    groups.append(k)
out+='/-- All names. -/\ndef names : List Name :=\n  '+' ++ '.join('names_'+k for k in groups)+'\n\nend Nostr.Build\n'
out=re.sub(r'(.{100,110}names_\w+ \+\+) ',r'\1\n  ',out)
open('/verif/lean/Verif/Build/Tables.lean','w').write(out)
print(cnt,groups)
