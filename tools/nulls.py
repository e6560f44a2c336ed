#!/usr/bin/env python3
"""Writes lean/Verif/Null/Table.lean from the text of /repo: for each function declared in a public header its
pointer arguments, the tests of them for NULL and the first uses, in the order of the text. Functions whose tests
are in a static helper, or are not of the plain form, are given by hand below."""
import re,glob,sys
hdr=''.join(open(f).read() for f in sorted(glob.glob('/repo/include/*.h'))+['/repo/include/nostr_features.h.in'])
def nocom(s):
    return re.sub(r'//[^\n]*',lambda m:' '*len(m.group()),re.sub(r'/\*.*?\*/',lambda m:re.sub(r'[^\n]',' ',m.group()),s,flags=re.S))
decl=set(re.findall(r'\b(nostr_\w+|secure_wipe)\s*\(',nocom(hdr)))
ANS={'NOSTR_ERR_INVALID_PARAM':'(.code .invalidParam)','NOSTR_RELAY_ERR_INVALID_JSON':'(.code (.relay .invalidJson))',
 'NOSTR_RELAY_ERR_MISSING_FIELD':'(.code (.relay .missingField))','NOSTR_RELAY_ERR_INVALID_ID':'(.code (.relay .invalidId))',
 'NULL':'.null','0':'.zero','false':'.no','-1':'.minusOne','':'.nothing','NOSTR_CLIENT_MSG_UNKNOWN':'.unknown',
 'NOSTR_OK':'OK','NOSTR_RELAY_OK':'OK'}
IP='(.code .invalidParam)'
def R(*ps,a=IP,pre=()): return ('refuse',list(ps),a,list(pre))
def RA(*ps,a=IP): return ('refuseAll',list(ps),a)
def U(*ps): return [('use',p) for p in ps]
def W(cs,ps=None): return ('when',cs,ps or cs)
def F(*ps): return ('finish',list(ps))
HAND={
 'nostr_config_set_callback':[],
 'nostr_mnemonic_to_keypair':None,
 'nostr_random_bytes':U('buf'),
 'nostr_constant_time_memcmp':U('a','b'),
 'nostr_nip05_parse_response':[R('json','name','pubkey_hex'),W(['relays']),W(['relay_count']),*U('json','name','pubkey_hex'),F('relays','relay_count'),*U('relays','relay_count')],
 'nostr_event_add_reply_tags':[R('event'),RA('root_id','reply_id'),W(['root_id']),W(['root_id','root_relay']),W(['root_id','root_pubkey']),W(['root_id'],['event']),W(['reply_id']),W(['reply_id','reply_relay']),W(['reply_id','reply_pubkey']),W(['reply_id'],['event'])],
 'nostr_nip47_create_lookup_invoice_params':[R('params_json'),RA('payment_hash','invoice'),W(['payment_hash']),W(['invoice']),*U('params_json')],
 'nostr_event_get_root_id':[R('event','root_id'),*U('root_id'),W(['relay_hint']),*U('event')],
 'nostr_event_get_reply_id':[R('event','reply_id'),*U('reply_id'),W(['relay_hint']),*U('event')],
 'nostr_relay_list_get_read_relays':[R('list','urls','count'),*U('list','count','urls')],
 'nostr_relay_list_get_write_relays':[R('list','urls','count'),*U('list','count','urls')],
 'nostr_publish_event':[R('relay','event'),*U('relay','event')],
 'nostr_event_get_d_tag':[R('event',a='.null'),*U('event')],
 'nostr_event_get_expiration':[R('event',a='.zero'),*U('event')],
 'nostr_event_is_expired':[R('event',a='.no'),*U('event')],
 'nostr_event_is_expired_now':[R('event',a='.no'),*U('event')],
 'nostr_event_compare_addressable':[R('a','b',a='.zero'),*U('a','b')],
 'nostr_event_get_e_tags_binary':[R('event','out_count',a='.null',pre=['out_count']),*U('event','out_count')],
 'nostr_event_get_p_tags_binary':[R('event','out_count',a='.null',pre=['out_count']),*U('event','out_count')],
 'nostr_nip47_free_connection':[R('conn',a='.nothing'),*U('conn')],
 'nostr_nip46_request_free':[W(['request'])],
 'nostr_list_add_pubkey':[R('pubkey'),*U('pubkey'),R('list','pubkey'),*U('list'),W(['relay_hint']),W(['petname'])],
 'nostr_list_add_event':[R('event_id'),*U('event_id'),R('list','event_id'),*U('list'),W(['relay_hint'])],
 'nostr_list_from_event':[R('event','list'),*U('event','list'),W(['keypair'])],
 'nostr_list_to_event':[R('list','event'),*U('list','event'),W(['keypair'])],
 'nostr_relay_info_set_nips':[R('info',a='(.code (.relay .missingField))'),*U('info'),F('nips'),*U('nips')],
 'nostr_filter_validate':[R('filter','result',a='(.code (.relay .invalidJson))',pre=['result']),*U('result','filter')],
 'nostr_event_validate_full':[R('event','result',a='(.code (.relay .missingField))',pre=['result']),*U('result','event')],
 'nostr_filter_matches_with_search':[R('filter','event',a='.no'),*U('filter','event'),W(['search_cb'])],
 'nostr_filters_match_with_search':[R('filters','event',a='.no'),*U('filters','event'),W(['search_cb'])],
 'nostr_filter_get_tag_values':[R('filter',a='.null',pre=['count']),*U('filter'),W(['count'])],
 'nostr_event_get_tag_at':[R('event',a='.null',pre=['out_count']),*U('event'),W(['out_count'])],
 'nostr_tag_iterator_next':[R('iter',a='.null',pre=['tag_len']),*U('iter'),W(['tag_len'])],
 'nostr_tag_iterator_init':[R('iter',a='.nothing'),*U('iter')],
 'nostr_client_msg_get_filters':[R('msg',a='.null',pre=['out_count']),*U('msg'),W(['out_count'])],
 'nostr_nip47_parse_info_event':[R('event'),*U('event'),W(['capabilities','cap_count']),W(['notifications','notif_count']),W(['encryptions','enc_count'])],
 'nostr_nip47_parse_info_response':[R('result_json'),*U('result_json'),W(['alias']),W(['color']),W(['pubkey']),W(['network']),W(['block_height']),W(['methods','method_count'])],
 'nostr_zap_parse_receipt':[R('event'),*U('event'),W(['bolt11']),W(['preimage']),W(['zap_request']),W(['amount','bolt11'])],
 'nostr_zap_validate_lnurl':[R('lnurl'),*U('lnurl')],
 'nostr_free':[],
 'nostr_repost_parse':[R('event'),*U('event'),W(['reposted_event_id']),W(['reposted_pubkey']),W(['relay_hint']),W(['reposted_kind'])],
 'nostr_reaction_parse':[R('event'),*U('event'),W(['reaction_content']),W(['target_event_id']),W(['target_pubkey']),W(['target_kind'])],
 'nostr_event_add_tag':[R('event','values'),*U('values'),R('values[i]'),*U('values[i]','event')],
 'nostr_nip47_create_pay_keysend_params':[R('params_json','pubkey'),*U('pubkey'),W(['preimage']),W(['tlv_records']),W(['tlv_records'],['tlv_records[i]']),*U('params_json')],
 'nostr_nip47_create_multi_pay_invoice_params':[R('params_json','invoices'),W(['invoice_ids']),W(['invoice_ids','invoice_ids[i]'],['invoice_ids[i]']),*U('invoices','invoices[i]'),W(['amounts']),*U('params_json')],
 'nostr_nip59_create_gift_wrap':None,
}
for x in ('e_tags','p_tags'): HAND['nostr_filter_get_'+x]=[R('filter',a='.null',pre=['count']),*U('filter'),W(['count'])]
for x in ('ids','authors','kinds'): HAND['nostr_filter_get_'+x]=[R('filter',a='.null',pre=['out_count']),*U('filter'),W(['out_count'])]
for f,v in (('hashtag','hashtag'),('word','word'),('relay','relay_url'),('reference','reference')):
    HAND['nostr_list_add_'+f]=[R(v),*U(v),R('list',v),*U('list')]+([W(['relay_hint'])] if f=='reference' else [])
HAND['nostr_list_add_group']=[R('group_id','relay_url'),*U('group_id','relay_url'),R('list','group_id'),*U('list'),W(['group_name'])]
HAND['nostr_list_add_emoji']=[R('shortcode','image_url'),*U('shortcode','image_url'),R('list','shortcode'),*U('list')]
for x in ('d_tag','title','description','image'): HAND['nostr_list_set_'+x]=[R('list'),*U('list'),W([x])]
STORED={('nostr_nip05_verify','user_data'),('nostr_relay_connect','user_data'),('nostr_subscribe','callback'),('nostr_subscribe','user_data'),
 ('nostr_relay_set_message_callback','callback'),('nostr_relay_set_message_callback','user_data'),('nostr_relay_msg_event','event'),
 ('nostr_filter_matches_with_search','user_data'),('nostr_filters_match_with_search','user_data')}
ELEM={'nostr_event_add_tag':['values[i]'],'nostr_nip47_create_pay_keysend_params':['tlv_records[i]'],'nostr_nip47_create_multi_pay_invoice_params':['invoices[i]','invoice_ids[i]']}
fns={}
for f in sorted(glob.glob('/repo/src/*.c')):
    t=nocom(open(f).read())
    for m in re.finditer(r'^(?!static|#|\s)([\w\s\*\(]+?)\b(nostr_\w+|secure_wipe)\s*\(([^;{]*?)\)(\)\[32\])?\s*\{',t,flags=re.M):
        name=m.group(2)
        if name not in decl: continue
        i=m.end()-1
        k=t.find('\n}',i); k2=t.find('}',i)
        j=k+1 if k>=0 else k2
        if '\n' not in t[i:k2]: j=k2
        body=t[i:j+1]
        if 'NOT_SUPPORTED' in body and not re.search(r'if\s*\(',body): continue
        if re.search(r'\(void\)|UNUSED\(',body) and not re.search(r'if\s*\(',body) and name not in('nostr_zap_validate_lnurl',): continue
        line=t[:m.start()].count('\n')+1+(len(m.group(0))-len(m.group(0).lstrip('\n')))
        end=t[:j].count('\n')+1
        ps=[]
        for p in m.group(3).split(','):
            p=p.strip()
            if '*' in p or '[' in p or re.search(r'_callback|_cb\b|_cb_t\b',p):
                ps.append(re.findall(r'\w+',p.split('[')[0])[-1])
        if name in fns: sys.stderr.write('DUP %s %s:%d\n'%(name,f,line)); continue
        fns[name]=(f.split('/')[-1],line,end,ps,body)
def auto(name,ps,b):
    ev=[]   # (pos, op)
    guards={}
    for g in re.finditer(r'if\s*\(([^{;]*)\)\s*\{?\s*return\s*([^;]*);',b):
        cond=g.group(1)
        ans=g.group(2).strip()
        if '&&' in cond and re.search(r'!\s*\w+\s*&&\s*!',cond) and not name.endswith('relay_list_add'): sys.stderr.write('AND %s\n'%name)
        hit=[]
        for p in ps:
            if p in guards: continue
            if re.search(r'(?<![\w>.])!\s*'+p+r'\b(?!\s*(->|\[))',cond):
                hit.append(p); guards[p]=g.end()
        if hit:
            a=ANS[ans]
            ev.append((g.start(),F(*hit) if a=='OK' else R(*hit,a=a)))
    opt=[]
    for p in ps:
        if p in guards:
            u=re.search(r'(?<![\w>.])'+p+r'\b',b[guards[p]:])
            if u: ev.append((guards[p]+u.start(),('use',p)))
            elif re.search(r'(?<![\w>.])'+p+r'\b\s*(->|\[)',b): ev.append((guards[p],('use',p)))
        elif (name,p) in STORED: pass
        else:
            u=re.search(r'(?<![\w>.])'+p+r'\b',b)
            if not u: sys.stderr.write('UNUSED %s %s\n'%(name,p)); continue
            ok=re.search(r'if\s*\('+p+r'\s*[)&]|&&\s*'+p+r'\)|\b'+p+r'\s*\?',b) or p in('passphrase',)
            if not ok: sys.stderr.write('HAND? %s %s\n'%(name,p))
            ev.append((u.start(),W([p])))
    ev.sort(key=lambda e:e[0])
    return [o for _,o in ev]
out=[]
for name in sorted(fns,key=lambda n:(fns[n][0],fns[n][1])):
    f,l,e,ps,b=fns[name]
    ops=HAND.get(name)
    hand=ops is not None
    if not hand: ops=auto(name,ps,b)
    ps=ps+ELEM.get(name,[])
    ix={p:i for i,p in enumerate(ps)}
    L=lambda xs:'['+', '.join(str(ix[x]) for x in xs)+']'
    body=[];needs=[]
    for o in ops:
        if o[0]=='refuse':
            body.append('.refuse %s %s %s'%(L(o[1]),L(o[3]),o[2])); needs+=[[p] for p in o[1] if [p] not in needs]
        elif o[0]=='refuseAll': body.append('.refuseAll %s %s'%(L(o[1]),o[2])); needs.append(o[1])
        elif o[0]=='use': body.append('.use %d'%ix[o[1]])
        elif o[0]=='when': body.append('.when %s %s'%(L(o[1]),L(o[2])))
        elif o[0]=='finish': body.append('.finish %s'%L(o[1]))
    out.append((name,f,l,e,ps,needs,body,hand,ix))
print(len(out),sum(len(o[4]) for o in out),file=sys.stderr)
miss=decl-{o[0] for o in out}
print('MISSING',sorted(miss),file=sys.stderr)
if __name__=='__main__':
    files=[]
    for o in out:
        if o[1] not in files: files.append(o[1])
    s='''import Verif.Null.Model

/-! # The pointer arguments of the public functions

Written by `tools/nulls.py` from the text of the sources: for every function of a public header the pointer
arguments in the order of the declaration (numbered from 0), the tests for NULL and the first use of each argument in
the order of the text. `byHand` marks the functions whose entry is from the reading of the code, because the test
is in a helper (`add_item`, `find_e_tag_by_marker`, `get_relays_by_flag`, `copy_str_safe`, `free_connection`,
`nostr_event_get_tag_value`, `nostr_relay_send_event`), or does something before it returns. An argument `x[i]` is an
element of the array `x`. -/

namespace Nostr.Null

'''
    groups=[]
    for f in files:
        g='fns_'+f[:-2].replace('.','_')
        groups.append(g)
        s+='/-- The public functions of src/%s. -/\ndef %s : List Fn := [\n'%(f,g)
        rows=[]
        for name,ff,l,e,ps,needs,body,hand,ix in out:
            if ff!=f: continue
            nd='['+', '.join('['+', '.join(str(ix[p]) for p in n)+']' for n in needs)+']'
            rows.append('  -- src/%s:%d-%d\n  { name := "%s", args := [%s], needs := %s, byHand := %s,\n    body := [%s] }'%(f,l,e,name,', '.join('"%s"'%p for p in ps),nd,'true' if hand else 'false',', '.join(body)))
        s+=',\n'.join(rows)+']\n\n'
    s+='/-- Every function declared in include/nostr.h, include/nostr_relay_protocol.h and include/nostr_features.h.in. -/\ndef table : List Fn :=\n  '+' ++\n  '.join(groups)+'\n\nend Nostr.Null\n'
    if len(sys.argv)>1: open(sys.argv[1],'w').write(s)
